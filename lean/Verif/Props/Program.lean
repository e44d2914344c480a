import Verif.Model.Program
import Verif.Spec.Program
import Verif.Props.ConfigLifetime
import Verif.Props.Main
import Verif.Props.Run

/-!
# Property C114: from the command line and the configuration files to the exit code
-/

namespace Oclint
open Spec

variable {U σ κ : Type}

section Stages
variable (m : Machine U σ κ) (cli : CommandLine) (st : OptionState)
  (hst : processOptions m.env cli = .ok st)
include hst

theorem ruleDirs_eq : rulesPath m.env st = ruleDirs m.env cli :=
  C14_rule_paths_partial m.env cli st hst

theorem rulesCome_iff : RulesLoad m st ↔ RulesCome m cli := by
  unfold RulesLoad RulesCome rulePlugins
  rw [ruleDirs_eq m cli st hst]
  simp only [Option.isSome_iff_ne_none]

theorem rulesThatRun_eq : runningRules m st = rulesThatRun m cli := by
  unfold runningRules rulesThatRun rulePlugins
  rw [ruleDirs_eq m cli st hst]
  congr 1
  funext r
  rw [Bool.eq_iff_iff, (C14_rule_selection_partial m.env cli st hst _).1]
  simp

omit hst in
theorem reporterDir_eq : reporterDir m.env = m.env.binPath ++ "/../lib/oclint/reporters".toList := by
  simp [reporterDir, Env.libPath, Env.installPrefix]

theorem reporterIs_iff (path : Str) :
    loadReporter m.listing m.reporterLibrary st.argReportType.value (reporterDir m.env) = .ok path ↔
      ReporterIs m cli path := by
  rw [C24_reporter_selected, (C13_precedence_partial m.env cli st hst).2.1, reporterDir_eq m]
  rfl

theorem reporterMissing_iff :
    (∃ w, loadReporter m.listing m.reporterLibrary st.argReportType.value (reporterDir m.env) =
      .throws w) ↔ ReporterMissing m cli := by
  rw [C24_reporter_error, (C13_precedence_partial m.env cli st hst).2.1, reporterDir_eq m]
  rfl

theorem analysisStops_iff : (∃ w, analysis m st = .throws w) ↔ AnalysisStops m cli := by
  obtain ⟨-, -, -, -, -, hg, hc, -⟩ := C13_precedence_partial m.env cli st hst
  unfold AnalysisStops checkerWanted
  rw [← hg, ← hc, ← rulesThatRun_eq m cli st hst]
  have key : ∀ w, analysis m st = .throws w ↔ driverRun m.toolchain m.mainExecutable
      st.argGlobalAnalysis.value st.argClangChecker.value ⟨runningRules m st, m.takeoff⟩
      ⟨m.env.cwd, ResultCollector.empty, m.initialRules⟩ m.db m.sources = .throws w := by
    intro w
    unfold analysis
    split <;> rename_i h <;> rw [h] <;> simp
  constructor
  · rintro ⟨w, h⟩
    obtain ⟨words, h1⟩ := (C92_error m.toolchain m.mainExecutable _ _ _ m.db m.sources
      (fun _ => []) _ w).1 ((key w).1 h)
    exact ⟨w, words, h1⟩
  · rintro ⟨w, words, h⟩
    exact ⟨w, (key w).2 ((C92_error m.toolchain m.mainExecutable _ _ _ m.db m.sources
      (fun _ => []) _ w).2 ⟨words, h⟩)⟩

theorem analysisEnds_iff (c : ResultCollector) : analysis m st = .ok c ↔
    ∃ rs bugs found, AnalysisEnds m cli rs bugs found ∧
      c = collected ResultCollector.empty rs bugs found := by
  obtain ⟨-, -, -, -, -, -, hc, -⟩ := C13_precedence_partial m.env cli st hst
  unfold AnalysisEnds checkerWanted
  rw [← hc, ← rulesThatRun_eq m cli st hst]
  have key : analysis m st = .ok c ↔ ∃ ds, driverRun m.toolchain m.mainExecutable
      st.argGlobalAnalysis.value st.argClangChecker.value ⟨runningRules m st, m.takeoff⟩
      ⟨m.env.cwd, ResultCollector.empty, m.initialRules⟩ m.db m.sources = .ok ds ∧
        ds.collector = c := by
    unfold analysis
    split <;> rename_i h <;> rw [h] <;> simp
  rw [key]
  constructor
  · rintro ⟨ds, h, rfl⟩
    obtain ⟨rs, bugs, h1⟩ := (C92_collects m.toolchain m.mainExecutable _ _ _ m.db m.sources _ ds).1 h
    cases h1 with
    | plain h1 h2 h3 => exact ⟨rs, [], _, ⟨_, _, h2, h3, .inl ⟨h1, rfl⟩⟩, rfl⟩
    | checked h1 h2 h3 h4 => exact ⟨rs, bugs, _, ⟨_, _, h2, h3, .inr ⟨h1, _, h4⟩⟩, rfl⟩
  · rintro ⟨rs, bugs, found, ⟨mid, s, h2, h3, ⟨h1, rfl⟩ | ⟨h1, cwd, h4⟩⟩, rfl⟩
    · exact ⟨_, (C92_collects m.toolchain m.mainExecutable _ _ _ m.db m.sources _ _).2
        ⟨_, _, .plain h1 h2 h3⟩, rfl⟩
    · exact ⟨_, (C92_collects m.toolchain m.mainExecutable _ _ _ m.db m.sources _ _).2
        ⟨_, _, .checked h1 h2 h3 h4⟩, rfl⟩

omit hst in
theorem everything_eq (rs bugs : List (CompileResult U)) (found : List (List Violation)) :
    rawAll (collected ResultCollector.empty rs bugs found) = everything rs bugs found := by
  funext ch
  cases ch
  · simp [rawAll, collected, ResultCollector.empty, everything, collectAll_eq]
  · simp [rawAll, collected, ResultCollector.empty, everything]
  · simp [rawAll, collected, ResultCollector.empty, everything]
  · simp [rawAll, collected, ResultCollector.empty, everything]

theorem reportedOn_eq (rs bugs : List (CompileResult U)) (found : List (List Violation)) :
    answers st (collected ResultCollector.empty rs bugs found) =
      reportedOn m.env cli rs bugs found := by
  obtain ⟨-, -, -, -, -, -, -, hd⟩ := C13_precedence_partial m.env cli st hst
  funext ch
  unfold answers reportedOn
  rw [everything_eq, hd]

theorem fewEnough_iff (vs : List Violation) : WithinLimits m st vs ↔ FewEnough m cli vs := by
  obtain ⟨-, -, h1, h2, h3, -, -, -⟩ := C13_precedence_partial m.env cli st hst
  unfold WithinLimits FewEnough
  rw [h1, h2, h3]

theorem reported_eq (r : Str) (a : Answers) :
    (OutputOpens m cli ∧ Reported m st r a = m.report r a) ∨
      (¬ OutputOpens m cli ∧ ∃ w, Reported m st r a = .throws w) := by
  have hv : st.argOutput.value = wantedOutput m.env cli :=
    (C13_precedence_partial m.env cli st hst).1
  obtain ⟨-, h0, h1, h2⟩ := C16_output_path m.env cli st hst
  change wantedOutput m.env cli = [] → _ at h0
  change ∀ rest, wantedOutput m.env cli = '/' :: rest →
    outputPath st = .ok (wantedOutput m.env cli) at h1
  change ∀ c rest, c ≠ '/' → wantedOutput m.env cli = c :: rest →
    outputPath st = .ok (recordedCwd m.env ++ '/' :: wantedOutput m.env cli) at h2
  unfold Reported
  rw [hv]
  by_cases hd : wantedOutput m.env cli = "-".toList
  · rw [if_pos hd]
    exact .inl ⟨⟨none, .standard hd, fun f hf => by cases hf⟩, rfl⟩
  · rw [if_neg hd]
    have hfile : ∀ f, outputPath st = .ok f → Destination m.env cli (some f) →
        (∀ d, Destination m.env cli d → d = some f) →
        (OutputOpens m cli ∧ (match outputPath st with
            | .ok file => if m.canOpen file then m.report r a else .throws []
            | _ => .throws []) = m.report r a) ∨
          (¬ OutputOpens m cli ∧ ∃ w, (match outputPath st with
            | .ok file => if m.canOpen file then m.report r a else .throws []
            | _ => .throws []) = .throws w) := by
      intro f hf hdest huniq
      rw [hf]
      simp only
      by_cases ho : m.canOpen f = true
      · rw [if_pos ho]
        exact .inl ⟨⟨some f, hdest, fun g hg => by cases hg; exact ho⟩, rfl⟩
      · rw [if_neg ho]
        refine .inr ⟨?_, [], rfl⟩
        rintro ⟨d, hd', hall⟩
        exact ho (hall f (huniq d hd'))
    cases ho : wantedOutput m.env cli with
    | nil =>
      obtain ⟨w, hw⟩ := h0 ho
      rw [hw]
      refine .inr ⟨?_, [], rfl⟩
      rintro ⟨d, hd', -⟩
      cases hd' with
      | standard h => exact hd h
      | absolute rest h => rw [ho] at h; cases h
      | relative c rest h => rw [ho] at h; cases h
    | cons c rest =>
      by_cases hc : c = '/'
      · subst hc
        refine hfile ('/' :: rest) (ho ▸ h1 rest ho) (.absolute rest ho) ?_
        intro d hd'
        cases hd' with
        | standard h => exact absurd h hd
        | absolute rest' h => rw [ho] at h; rw [h]
        | relative c' rest' h hc' =>
          rw [ho] at h
          cases h
          exact absurd rfl hc'
      · have h3 := h2 c rest hc ho
        rw [ho] at h3
        refine hfile _ h3 (.relative c rest ho hc hd) ?_
        intro d hd'
        cases hd' with
        | standard h => exact absurd h hd
        | absolute rest' h =>
          rw [ho] at h
          cases h
          exact absurd rfl hc
        | relative c' rest' h hc' =>
          rw [ho] at h
          rw [h]

/-- The exit code in terms of the options is the exit code in terms of what the options come from. -/
theorem exits_iff_ends (n : Nat) : Exits m st n ↔ ProgramEnds m cli n := by
  have hrules := rulesCome_iff m cli st hst
  have hrep := reporterIs_iff m cli st hst
  have hmiss := reporterMissing_iff m cli st hst
  have hstop := analysisStops_iff m cli st hst
  have hend := analysisEnds_iff m cli st hst
  have hon := reportedOn_eq m cli st hst
  have hfew := fewEnough_iff m cli st hst
  have hout := reported_eq m cli st hst
  constructor
  · intro h
    cases h with
    | rules h => exact .noRules (mt hrules.2 h)
    | reporter w h1 h2 => exact .noReporter (hrules.1 h1) (hmiss.1 ⟨w, h2⟩)
    | analysis r w h1 h2 h3 => exact .stopped r (hrules.1 h1) ((hrep r).1 h2) (hstop.1 ⟨w, h3⟩)
    | report r w c h1 h2 h3 h4 =>
      obtain ⟨rs, bugs, found, h5, rfl⟩ := (hend c).1 h3
      rw [hon] at h4
      rcases hout r (reportedOn m.env cli rs bugs found) with ⟨ho, he⟩ | ⟨ho, -⟩
      · exact .notReported r w rs bugs found (hrules.1 h1) ((hrep r).1 h2) h5 ho (he ▸ h4)
      · exact .notOpened r rs bugs found (hrules.1 h1) ((hrep r).1 h2) h5 ho
    | errors r c h1 h2 h3 h4 h6 =>
      obtain ⟨rs, bugs, found, h5, rfl⟩ := (hend c).1 h3
      rw [hon] at h4
      rw [everything_eq] at h6
      rcases hout r (reportedOn m.env cli rs bugs found) with ⟨ho, he⟩ | ⟨ho, w, he⟩
      · exact .errors r rs bugs found (hrules.1 h1) ((hrep r).1 h2) h5 ho (he ▸ h4) h6
      · rw [he] at h4; cases h4
    | threshold r c h1 h2 h3 h4 h6 h7 =>
      obtain ⟨rs, bugs, found, h5, rfl⟩ := (hend c).1 h3
      rw [hon] at h4 h7
      rw [everything_eq] at h6
      rcases hout r (reportedOn m.env cli rs bugs found) with ⟨ho, he⟩ | ⟨ho, w, he⟩
      · exact .tooMany r rs bugs found (hrules.1 h1) ((hrep r).1 h2) h5 ho (he ▸ h4) h6
          (mt (hfew _).2 h7)
      · rw [he] at h4; cases h4
    | success r c h1 h2 h3 h4 h6 h7 =>
      obtain ⟨rs, bugs, found, h5, rfl⟩ := (hend c).1 h3
      rw [hon] at h4 h7
      rw [everything_eq] at h6
      rcases hout r (reportedOn m.env cli rs bugs found) with ⟨ho, he⟩ | ⟨ho, w, he⟩
      · exact .fine r rs bugs found (hrules.1 h1) ((hrep r).1 h2) h5 ho (he ▸ h4) h6 ((hfew _).1 h7)
      · rw [he] at h4; cases h4
  · intro h
    have hr : ∀ (r : Str) (rs bugs : List (CompileResult U)) found (o : Outcome Unit),
        OutputOpens m cli → m.report r (reportedOn m.env cli rs bugs found) = o →
        Reported m st r (answers st (collected ResultCollector.empty rs bugs found)) = o := by
      intro r rs bugs found o h1 h2
      rw [hon]
      rcases hout r (reportedOn m.env cli rs bugs found) with ⟨-, he⟩ | ⟨ho, -⟩
      · rw [he, h2]
      · exact absurd h1 ho
    cases h with
    | noRules h => exact .rules (mt hrules.1 h)
    | noReporter h1 h2 =>
      obtain ⟨w, h3⟩ := hmiss.2 h2
      exact .reporter w (hrules.2 h1) h3
    | stopped r h1 h2 h3 =>
      obtain ⟨w, h4⟩ := hstop.2 h3
      exact .analysis r w (hrules.2 h1) ((hrep r).2 h2) h4
    | notOpened r rs bugs found h1 h2 h3 h4 =>
      rcases hout r (reportedOn m.env cli rs bugs found) with ⟨ho, -⟩ | ⟨-, w, he⟩
      · exact absurd ho h4
      · exact .report r w _ (hrules.2 h1) ((hrep r).2 h2) ((hend _).2 ⟨rs, bugs, found, h3, rfl⟩)
          (by rw [hon]; exact he)
    | notReported r w rs bugs found h1 h2 h3 h4 h5 =>
      exact .report r w _ (hrules.2 h1) ((hrep r).2 h2) ((hend _).2 ⟨rs, bugs, found, h3, rfl⟩)
        (hr r rs bugs found _ h4 h5)
    | errors r rs bugs found h1 h2 h3 h4 h5 h6 =>
      exact .errors r _ (hrules.2 h1) ((hrep r).2 h2) ((hend _).2 ⟨rs, bugs, found, h3, rfl⟩)
        (hr r rs bugs found _ h4 h5) (by rw [everything_eq]; exact h6)
    | tooMany r rs bugs found h1 h2 h3 h4 h5 h6 h7 =>
      exact .threshold r _ (hrules.2 h1) ((hrep r).2 h2) ((hend _).2 ⟨rs, bugs, found, h3, rfl⟩)
        (hr r rs bugs found _ h4 h5) (by rw [everything_eq]; exact h6)
        (by rw [hon]; exact mt (hfew _).1 h7)
    | fine r rs bugs found h1 h2 h3 h4 h5 h6 h7 =>
      exact .success r _ (hrules.2 h1) ((hrep r).2 h2) ((hend _).2 ⟨rs, bugs, found, h3, rfl⟩)
        (hr r rs bugs found _ h4 h5) (by rw [everything_eq]; exact h6)
        (by rw [hon]; exact (hfew _).2 h7)

end Stages

variable [DecidableEq κ]

/-- If the texts of configuration files were kept, the program would end with the exit code that the
specification gives for the command line and the configuration files. -/
theorem C114_texts_kept (m : Machine U σ κ) (cli : CommandLine)
    (hlen : ∀ s ∈ cli.ruleConfiguration, s.length < 2147483648) (code : ExitCode) :
    mainProgram m (some cli) = .ok code ↔ ProgramEnds m cli code.toNat := by
  obtain ⟨st, hst⟩ := C13_processing_succeeds_partial m.env cli hlen
  rw [C17_exit_code m cli st hst, exits_iff_ends m cli st hst]

/-- The same machine, with configuration files whose texts are kept. -/
def keepingTexts (m : Machine U σ κ) (yaml : Str → RefConfig) : Machine U σ κ :=
  { m with env := keeping m.env yaml }

omit [DecidableEq κ] in
theorem mainWith_keeping [DecidableEq κ] (m : Machine U σ κ) (yaml : Str → RefConfig)
    (st : OptionState) : mainWith (keepingTexts m yaml) st = mainWith m st := rfl

/-- If the configuration files consulted have no text, the program is the one with texts kept. -/
theorem refProgram_eq (m : Machine U σ κ) (yaml : Str → RefConfig) (cli : CommandLine)
    (hno : ∀ p, Consulted m.env p → ¬ HasText m.env.fs yaml p) :
    refProgram m yaml (some cli) = mainProgram (keepingTexts m yaml) (some cli) := by
  unfold refProgram mainProgram
  simp only
  rw [C68_options_defined m.env yaml cli hno]
  rfl

/-- **C114.** Without texts in the configuration files consulted, the program ends with an exit code
exactly if the specification gives it for the command line and the files. -/
theorem C114_exit_code (m : Machine U σ κ) (yaml : Str → RefConfig) (cli : CommandLine)
    (hlen : ∀ s ∈ cli.ruleConfiguration, s.length < 2147483648)
    (hno : ∀ p, Consulted m.env p → ¬ HasText m.env.fs yaml p) (code : ExitCode) :
    refProgram m yaml (some cli) = .ok code ↔
      ProgramEnds (keepingTexts m yaml) cli code.toNat := by
  rw [refProgram_eq m yaml cli hno]
  exact C114_texts_kept _ cli hlen code

/-- With a text in one of them, the program reads freed memory, whatever the command line. -/
theorem C114_undefined (m : Machine U σ κ) (yaml : Str → RefConfig) (cli : CommandLine) (p : Str)
    (hp : Consulted m.env p) (ht : HasText m.env.fs yaml p) :
    refProgram m yaml (some cli) = .ub := by
  unfold refProgram
  simp only
  rw [C68_options_undefined m.env yaml cli p hp ht]
  rfl

/-- A command line that is not accepted. -/
theorem C114_rejected (m : Machine U σ κ) (yaml : Str → RefConfig) :
    ∃ code, refProgram m yaml none = .ok code ∧ code.toNat = 7 := ⟨_, rfl, rfl⟩

omit [DecidableEq κ] in
/-- The specification gives one code at most. -/
theorem C114_unique (m : Machine U σ κ) (cli : CommandLine)
    (hlen : ∀ s ∈ cli.ruleConfiguration, s.length < 2147483648) (a b : Nat)
    (ha : ProgramEnds m cli a) (hb : ProgramEnds m cli b) : a = b := by
  obtain ⟨st, hst⟩ := C13_processing_succeeds_partial m.env cli hlen
  exact C17_exit_code_unique m st a b ((exits_iff_ends m cli st hst a).2 ha)
    ((exits_iff_ends m cli st hst b).2 hb)

/-! ## Whether it ends -/

theorem bind_defined {α β : Type} {x : Outcome α} {f : α → Outcome β} (hx : x ≠ .ub)
    (hf : ∀ a, x = .ok a → f a ≠ .ub) : (x >>= f) ≠ .ub := by
  cases h : x with
  | ub => exact absurd h hx
  | throws w => intro hc; cases hc
  | ok a => exact hf a h

theorem buildArgv_defined (exe : Str) (cmd : List Str) (checker : Bool) (h1 : cmd ≠ [])
    (h2 : checker = true → 2 ≤ cmd.length) : buildArgv exe cmd checker ≠ .ub := by
  suffices h : ∃ argv, ClangCall exe checker cmd argv by
    obtain ⟨argv, h⟩ := h
    rw [(buildArgv_iff _ _ _ _).2 h]
    intro hc; cases hc
  cases cmd with
  | nil => exact absurd rfl h1
  | cons first rest =>
    cases checker with
    | false => exact ⟨_, .normal first rest⟩
    | true =>
      have h3 := h2 rfl
      have hne : rest ≠ [] := by
        rintro rfl
        simp at h3
      rw [← List.dropLast_append_getLast hne]
      exact ⟨_, .checker first _ _⟩

theorem getCC1_defined (c : Compilation) : getCC1Arguments c ≠ .ub := by
  intro h
  unfold getCC1Arguments at h
  cases hj : c.jobs with
  | nil => rw [hj] at h; simp at h
  | cons job others =>
    rw [hj] at h
    simp only at h
    repeat' split at h
    all_goals cases h

theorem compileJob_defined (tc : Toolchain U) (exe : Str) (checker : Bool) (st : DriverState σ)
    (job : Str × CompileCommand) (h1 : tc.adjust job.2.commandLine job.1 ≠ [])
    (h2 : checker = true → 2 ≤ (tc.adjust job.2.commandLine job.1).length) :
    compileJob tc exe checker st job ≠ .ub := by
  unfold compileJob
  refine bind_defined ?_ fun st' _ => bind_defined (buildArgv_defined exe _ _ h1 h2) fun argv _ =>
    bind_defined (getCC1_defined _) fun cc1 _ h => by cases h
  obtain ⟨dir, hdir⟩ : ∃ dir, JobDirectory job dir := by
    obtain ⟨t, -, ht⟩ := replaceIter_spec (old := "\\ ".toList) " ".toList (by decide)
      (job.2.directory.length + 1) [] job.2.directory (by omega)
    exact ⟨t, ht⟩
  unfold enterDirectory
  simp only [(jobDirectory_iff job dir).2 hdir]
  split <;> (intro h; cases h)

theorem takeoffAll_defined (a : Analyzer U σ) (u : U) (ha : ∀ rule s u, a.takeoff rule s u ≠ .ub)
    (rules : List RuleId) (s : σ) (set : ViolationSet) : takeoffAll a u rules s set ≠ .ub := by
  induction rules generalizing s set with
  | nil => intro h; cases h
  | cons rule rules ih => exact bind_defined (ha rule s u) fun r _ => ih _ _

theorem analyze_defined (a : Analyzer U σ) (ha : ∀ rule s u, a.takeoff rule s u ≠ .ub)
    (us : List U) (st : DriverState σ) : analyze a us st ≠ .ub := by
  induction us generalizing st with
  | nil => intro h; cases h
  | cons u us ih => exact bind_defined (takeoffAll_defined a u ha _ _ _) fun r _ => ih _

theorem construct_defined (tc : Toolchain U) (exe : Str) (jobs : List (Str × CompileCommand))
    (h : ∀ job ∈ jobs, tc.adjust job.2.commandLine job.1 ≠ []) (st : DriverState σ) (us : List U) :
    constructCompilers tc exe st us jobs ≠ .ub := by
  induction jobs generalizing st us with
  | nil => intro h; cases h
  | cons job jobs ih =>
    refine bind_defined (compileJob_defined tc exe false st job (h job (by simp))
      (fun hc => by cases hc)) fun r _ => ?_
    have ih := ih fun j hj => h j (by simp [hj])
    split
    · exact ih _ _
    · exact ih _ _

theorem checker_defined (tc : Toolchain U) (exe : Str) (jobs : List (Str × CompileCommand))
    (h : ∀ job ∈ jobs, 2 ≤ (tc.adjust job.2.commandLine job.1).length) (st : DriverState σ) :
    invokeClangStaticAnalyzer tc exe st jobs ≠ .ub := by
  induction jobs generalizing st with
  | nil => intro h; cases h
  | cons job jobs ih =>
    have h1 := h job (by simp)
    exact bind_defined (compileJob_defined tc exe true st job
      (by intro h0; rw [h0] at h1; simp at h1) (fun _ => h1)) fun r _ =>
        ih (fun j hj => h j (by simp [hj])) _

theorem invoke_defined (tc : Toolchain U) (exe : Str) (a : Analyzer U σ)
    (ha : ∀ rule s u, a.takeoff rule s u ≠ .ub) (jobs : List (Str × CompileCommand))
    (h : ∀ job ∈ jobs, tc.adjust job.2.commandLine job.1 ≠ []) (st : DriverState σ) :
    invoke tc exe a st jobs ≠ .ub :=
  bind_defined (construct_defined tc exe jobs h st []) fun r _ => analyze_defined a ha r.2 r.1

theorem invokeEach_defined (tc : Toolchain U) (exe : Str) (a : Analyzer U σ)
    (ha : ∀ rule s u, a.takeoff rule s u ≠ .ub) (jobs : List (Str × CompileCommand))
    (h : ∀ job ∈ jobs, tc.adjust job.2.commandLine job.1 ≠ []) (st : DriverState σ) :
    invokeEach tc exe a st jobs ≠ .ub := by
  induction jobs generalizing st with
  | nil => intro h; cases h
  | cons job jobs ih =>
    exact bind_defined (invoke_defined tc exe a ha [job]
      (fun j hj => h j (by rw [List.mem_singleton] at hj; simp [hj])) st) fun r _ =>
        ih (fun j hj => h j (by simp [hj])) _

theorem driverRun_defined (tc : Toolchain U) (exe : Str) (together checker : Bool) (a : Analyzer U σ)
    (st : DriverState σ) (db : Str → List CompileCommand) (sources : List Str)
    (ha : ∀ rule s u, a.takeoff rule s u ≠ .ub)
    (h : ∀ job ∈ jobsOf tc db sources, tc.adjust job.2.commandLine job.1 ≠ [])
    (hc : checker = true → ∀ job ∈ jobsOf tc db sources,
      2 ≤ (tc.adjust job.2.commandLine job.1).length) :
    driverRun tc exe together checker a st db sources ≠ .ub := by
  have hjobs : constructCompileCommands tc.absolutePath db sources = jobsOf tc db sources := by
    unfold jobsOf
    rw [C19_compile_jobs]
  unfold driverRun
  rw [hjobs]
  have hlast : ∀ st' : DriverState σ, (if checker then
      invokeClangStaticAnalyzer tc exe st' (jobsOf tc db sources) else pure st') ≠ .ub := by
    intro st'
    cases checker with
    | true => exact checker_defined tc exe _ (hc rfl) st'
    | false => intro h; cases h
  cases together with
  | true => exact bind_defined (invoke_defined tc exe a ha _ h st) fun st' _ => hlast st'
  | false => exact bind_defined (invokeEach_defined tc exe a ha _ h st) fun st' _ => hlast st'

theorem loadReporter_defined (ls : Listing) (lib : Str → Option ReporterLibrary)
    (reportType dir : Str) (h : ∀ p ∈ pluginPaths ls dir, lib p ≠ some none) :
    loadReporter ls lib reportType dir ≠ .ub := by
  rw [loadReporter_eq]
  rcases other_or_decisive lib reportType (pluginPaths ls dir) with ho | ⟨pre, p, post, h1, h2, h3⟩
  · have := searchReporter_prefix _ [] ho
    rw [List.append_nil] at this
    rw [this]
    intro hc; cases hc
  · rw [h1, searchReporter_prefix pre _ h2, searchReporter]
    cases hl : lib p with
    | none => intro hc; cases hc
    | some x =>
      cases x with
      | none => exact absurd hl (h p (by rw [h1]; simp))
      | some n =>
        have hn : n = reportType := by
          by_contra hne; exact h3 ⟨n, hl, hne⟩
        subst hn
        simp

/-- **C114.** With reliable commands, rules and reporters the program ends, with the exit code the
specification gives. -/
theorem C114_ends (m : Machine U σ κ) (yaml : Str → RefConfig) (cli : CommandLine)
    (hlen : ∀ s ∈ cli.ruleConfiguration, s.length < 2147483648)
    (hno : ∀ p, Consulted m.env p → ¬ HasText m.env.fs yaml p)
    (hm : Reliable (keepingTexts m yaml) cli) :
    ∃ code, refProgram m yaml (some cli) = .ok code ∧
      ProgramEnds (keepingTexts m yaml) cli code.toNat := by
  suffices h : ∃ code, refProgram m yaml (some cli) = .ok code by
    obtain ⟨code, h⟩ := h
    exact ⟨code, h, (C114_exit_code m yaml cli hlen hno code).1 h⟩
  rw [refProgram_eq m yaml cli hno]
  generalize keepingTexts m yaml = m at hm
  obtain ⟨st, hst⟩ := C13_processing_succeeds_partial m.env cli hlen
  obtain ⟨-, -, -, -, -, -, hc, -⟩ := C13_precedence_partial m.env cli st hst
  rcases main_stages m cli st hst with ⟨c, h1, _⟩ | ⟨_, _, h | ⟨_, _, h⟩ | ⟨r, c, _, _, h⟩⟩
  · exact ⟨c, h1⟩
  · refine absurd h (loadReporter_defined _ _ _ _ ?_)
    rw [reporterDir_eq m]
    exact hm.reporters
  · exfalso
    have hd := driverRun_defined m.toolchain m.mainExecutable st.argGlobalAnalysis.value
      st.argClangChecker.value ⟨runningRules m st, m.takeoff⟩
      ⟨m.env.cwd, ResultCollector.empty, m.initialRules⟩ m.db m.sources hm.rules hm.commands
      (fun h1 => hm.checked (hc.symm.trans h1))
    unfold analysis at h
    split at h
    · cases h
    · cases h
    · exact hd ‹_›
  · exfalso
    rcases reported_eq m cli st hst r (answers st c) with ⟨-, he⟩ | ⟨-, w, he⟩
    · exact hm.reports _ _ (he ▸ h)
    · rw [he] at h; cases h

/-! ## Examples -/

/-- A configuration file that allows eleven violations of priority 2: the program ends with 0; a file
that names a reporter, with undefined behaviour. -/
def exProgram (config : Str) : Machine Unit Unit Nat :=
  { exMachine 11 false with
    env := { (exMachine 11 false).env with
      fs := fun p => if p = "/w/.oclint".toList then some config else none } }

def exYaml (content : Str) : RefConfig :=
  if content = "max-priority-2: 11".toList then { RefConfig.initial with maxP2 := 11 }
  else { RefConfig.initial with reportType := ⟨.buffer, "text".toList⟩ }

example : refProgram (exProgram []) exYaml (some {}) = .ok .VIOLATIONS_EXCEED_THRESHOLD := by
  decide +kernel

example : refProgram (exProgram "max-priority-2: 11".toList) exYaml (some {}) = .ok .SUCCESS := by
  decide +kernel

/-- A report that is to go to a file without a name. -/
example : refProgram (exProgram []) exYaml (some { output := some [] }) =
    .ok .ERROR_WHILE_REPORTING := by
  decide +kernel

example : refProgram (exProgram "report-type: text".toList) exYaml (some {}) = .ub := by
  decide +kernel

end Oclint
