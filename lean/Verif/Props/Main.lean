import Verif.Lemmas.Main
import Verif.Props.Options
import Verif.Props.Driver

/-!
# Properties C17 and C18: the exit code
-/

namespace Oclint
open Spec

variable {U σ κ : Type} [DecidableEq κ]

/-! ## C17 -/

/-- The outcome of `main` after option processing, as stages. -/
theorem main_stages (m : Machine U σ κ) (cli : CommandLine) (st : OptionState)
    (hst : processOptions m.env cli = .ok st) :
    (∃ code, mainProgram m (some cli) = .ok code ∧ Exits m st code.toNat) ∨
      (mainProgram m (some cli) = .ub ∧ RulesLoad m st ∧
        (loadReporter m.listing m.reporterLibrary st.argReportType.value (reporterDir m.env) = .ub ∨
          (∃ r, loadReporter m.listing m.reporterLibrary st.argReportType.value
              (reporterDir m.env) = .ok r ∧ analysis m st = .ub) ∨
          ∃ r c,
            loadReporter m.listing m.reporterLibrary st.argReportType.value (reporterDir m.env) =
              .ok r ∧ analysis m st = .ok c ∧ Reported m st r (answers st c) = .ub)) := by
  simp only [mainProgram, mainWith, hst, Outcome.bind_ok, prepare,
    show reporterPath m.env = reporterDir m.env from rfl]
  rcases loading_spec m st with ⟨hl, ld, h1, h2, h3⟩ | ⟨hl, ⟨w, h1⟩ | ⟨ld, h1, h2⟩⟩
  · rw [h1]
    simp only [if_neg h2]
    cases hr : loadReporter m.listing m.reporterLibrary st.argReportType.value
        (reporterDir m.env) with
    | ub => right; exact ⟨rfl, hl, Or.inl rfl⟩
    | throws w => left; exact ⟨.REPORTER_NOT_FOUND, rfl, .reporter w hl hr⟩
    | ok r =>
      simp only [Outcome.bind_ok, Outcome.pure_eq]
      rw [h3, filteredRules_eq]
      simp only [Outcome.bind_ok]
      have hrun : (((rulesPath m.env st).flatMap (pluginPaths m.listing)).eraseDups.flatMap
          fun p => (m.ruleLibrary p).getD []).filter
          (fun r => st.filter.accepts (m.ruleIdentifier r)) = runningRules m st := rfl
      rw [hrun]
      cases hd : driverRun m.toolchain m.mainExecutable st.argGlobalAnalysis.value
          st.argClangChecker.value ⟨runningRules m st, m.takeoff⟩
          ⟨m.env.cwd, ResultCollector.empty, m.initialRules⟩ m.db m.sources with
      | ub =>
        right
        exact ⟨rfl, hl, Or.inr (Or.inl ⟨r, rfl, by simp [analysis, hd]⟩)⟩
      | throws w =>
        left
        exact ⟨.ERROR_WHILE_PROCESSING, rfl, .analysis r w hl hr (by simp [analysis, hd])⟩
      | ok ds =>
        have ha : analysis m st = .ok ds.collector := by simp [analysis, hd]
        have hruled := answers_ruled st ds.collector (driverRun_ruled hd allRuled_empty)
        simp only [getResults_eq]
        have hrep := reportStage_cases m st r (answers st ds.collector)
        cases hs : reportStage m st r (answers st ds.collector) with
        | ub =>
          right
          exact ⟨rfl, hl, Or.inr (Or.inr ⟨r, _, rfl, ha, hrep.2.2.1 hs⟩)⟩
        | throws w =>
          left
          obtain ⟨w', hw⟩ := hrep.2.1.1 ⟨w, hs⟩
          exact ⟨.ERROR_WHILE_REPORTING, rfl, .report r w' _ hl hr ha hw⟩
        | ok u =>
          have hok := hrep.1.1 hs
          left
          simp only [handleExit]
          by_cases he : hasAny (answers st ds.collector .errors) = true
          · rw [if_pos he]
            exact ⟨.COMPILATION_ERRORS, rfl,
              .errors r _ hl hr ha hok ((answers_errors st _).1 he)⟩
          · rw [if_neg he]
            have hne : rawAll ds.collector .errors = [] := by
              by_contra hc; exact he ((answers_errors st _).2 hc)
            obtain ⟨b, hb1, hb2⟩ := exceedThreshold_eq m st (answers st ds.collector) hruled
            rw [hb1]
            simp only [Outcome.bind_ok]
            cases b with
            | true =>
              exact ⟨.VIOLATIONS_EXCEED_THRESHOLD, rfl, .threshold r _ hl hr ha hok hne (hb2.1 rfl)⟩
            | false =>
              refine ⟨.SUCCESS, rfl, .success r _ hl hr ha hok hne ?_⟩
              by_contra hc
              exact absurd (hb2.2 hc) (by simp)
  · rw [h1]
    left; exact ⟨.RULE_NOT_FOUND, rfl, .rules hl⟩
  · rw [h1]
    simp only [if_pos h2]
    left; exact ⟨.RULE_NOT_FOUND, rfl, .rules hl⟩

omit [DecidableEq κ] in
/-- **C17.** An earlier failing stage always wins, so the specification allows one code only. -/
theorem C17_exit_code_unique (m : Machine U σ κ) (st : OptionState) (a b : Nat)
    (ha : Exits m st a) (hb : Exits m st b) : a = b := by
  cases ha <;> cases hb <;> simp_all

/-- **C17.** With valid options the process exits with exactly the code the specification assigns to
the first failing stage. -/
theorem C17_exit_code (m : Machine U σ κ) (cli : CommandLine) (st : OptionState)
    (hst : processOptions m.env cli = .ok st) (code : ExitCode) :
    mainProgram m (some cli) = .ok code ↔ Exits m st code.toNat := by
  have hinj : ∀ a b : ExitCode, a.toNat = b.toNat → a = b := by
    intro a b; cases a <;> cases b <;> simp [ExitCode.toNat]
  rcases main_stages m cli st hst with ⟨c, h1, h2⟩ | ⟨h1, h2, h3⟩
  · rw [h1]
    constructor
    · intro h
      simp only [Outcome.ok.injEq] at h
      exact h ▸ h2
    · intro h
      rw [hinj c code (C17_exit_code_unique m st _ _ h2 h)]
  · rw [h1]
    constructor
    · intro h; simp at h
    · intro h
      exfalso
      generalize code.toNat = n at h
      rcases h3 with h3 | ⟨r, h3, h4⟩ | ⟨r, c, h3, h4, h5⟩ <;> cases h <;> simp_all

/-- **C17.** A command line that does not parse gives exit code 7. -/
theorem C17_bad_command_line (m : Machine U σ κ) :
    ∃ code, mainProgram m none = .ok code ∧ code.toNat = 7 := ⟨_, rfl, rfl⟩

/-- **C17.** No exception escapes and nothing undefined happens, provided the plugins and clang
themselves behave and `-rc` arguments are shorter than 2 GiB. -/
theorem C17_always_exits_partial (m : Machine U σ κ) (cli : CommandLine)
    (hlen : ∀ s ∈ cli.ruleConfiguration, s.length < 2147483648)
    (hrep : ∀ t d, loadReporter m.listing m.reporterLibrary t d ≠ .ub)
    (hdrv : ∀ st, analysis m st ≠ .ub) (hreport : ∀ r a, m.report r a ≠ .ub) :
    ∃ code, mainProgram m (some cli) = .ok code := by
  obtain ⟨st, hst⟩ := C13_processing_succeeds_partial m.env cli hlen
  rcases main_stages m cli st hst with ⟨c, h1, _⟩ | ⟨_, _, h | ⟨_, _, h⟩ | ⟨r, c, _, _, h⟩⟩
  · exact ⟨c, h1⟩
  · exact absurd h (hrep _ _)
  · exact absurd h (hdrv _)
  · exfalso
    unfold Reported at h
    split at h
    · exact hreport _ _ h
    · split at h
      · split at h
        · exact hreport _ _ h
        · simp at h
      · simp at h

/-- **C17.** Exit code 0 means exactly: everything worked, no compiler errors, all counts within
limits. -/
theorem C17_success_iff (m : Machine U σ κ) (cli : CommandLine) (st : OptionState)
    (hst : processOptions m.env cli = .ok st) :
    mainProgram m (some cli) = .ok .SUCCESS ↔
      RulesLoad m st ∧ ∃ r c,
        loadReporter m.listing m.reporterLibrary st.argReportType.value (reporterDir m.env) = .ok r ∧
        analysis m st = .ok c ∧ Reported m st r (answers st c) = .ok () ∧
        rawAll c .errors = [] ∧ WithinLimits m st (answers st c .violations) := by
  constructor
  · intro h
    have := (C17_exit_code m cli st hst _).1 h
    generalize hn : ExitCode.SUCCESS.toNat = n at this
    cases this <;> simp [ExitCode.toNat] at hn
    rename_i r c h1 h2 h3 h4 h5 h6
    exact ⟨h1, r, c, h2, h3, h4, h5, h6⟩
  · rintro ⟨h1, r, c, h2, h3, h4, h5, h6⟩
    exact (C17_exit_code m cli st hst _).2 (.success r c h1 h2 h3 h4 h5 h6)

/-- A machine with one rule of priority 2 that reports `n` violations in its only unit. -/
def exMachine (n : Nat) (errors : Bool) : Machine Unit Unit Nat :=
  { env := { cwd := "/w".toList, home := none, binPath := "/b".toList, fs := fun _ => none,
             yaml := fun _ => ConfigFile.initial }
    listing := fun d => if d = "/b/../lib/oclint/rules".toList then some ["r".toList]
      else some ["t".toList]
    ruleLibrary := fun _ => some [4]
    reporterLibrary := fun _ => some (some "text".toList)
    toolchain :=
      { absolutePath := id
        chdir := fun _ d => some d
        adjust := fun c _ => c
        build := fun _ argv => ⟨[⟨true, "clang".toList, argv⟩], [], []⟩
        compile := fun _ _ =>
          ⟨if errors then [⟨.error, true, "a.c".toList, false, [], 1, 1, []⟩] else [], false, some (),
            true, [true]⟩ }
    mainExecutable := "/b/oclint".toList
    db := fun _ => [⟨"/w".toList, ["cc".toList, "a.c".toList]⟩]
    sources := ["a.c".toList]
    ruleIdentifier := fun _ => "MyRule".toList
    priorityOf := fun _ => 2
    takeoff := fun _ s _ =>
      .ok (s, (List.range n).map fun (i : Nat) => ⟨"a.c".toList, i, 1, i, 2, "m".toList⟩)
    initialRules := ()
    hash := fun _ => 0
    canOpen := fun _ => false
    report := fun _ _ => .ok () }

/-- The default limit for priority 2 is 10: ten violations pass, eleven do not; an error wins; an
output file that cannot be opened wins over the violations; the last rule can be disabled away. -/
example : mainProgram (exMachine 10 false) (some {}) = .ok .SUCCESS := by decide +kernel
example : mainProgram (exMachine 11 false) (some {}) = .ok .VIOLATIONS_EXCEED_THRESHOLD := by
  decide +kernel
example : mainProgram (exMachine 11 true) (some {}) = .ok .COMPILATION_ERRORS := by decide +kernel
example : mainProgram (exMachine 11 true) (some { output := some "o".toList }) =
    .ok .ERROR_WHILE_REPORTING := by decide +kernel
example : mainProgram (exMachine 11 false) (some { disabledRules := ["MyRule".toList] }) =
    .ok .SUCCESS := by decide +kernel
example : mainProgram (exMachine 11 false) (some { reportType := some "x".toList }) =
    .ok .REPORTER_NOT_FOUND := by decide +kernel

/-! ## C18 -/

/-- Exit code for given answers when there are no compiler errors. -/
theorem handleExit_iff (priorityOf : RuleId → Int) (st : OptionState) (a : Answers)
    (hr : ∀ v ∈ a .violations, v.rule ≠ none) (he : a .errors = []) :
    handleExit priorityOf st a = .ok
      (if (countWithPriority priorityOf 1 (a .violations) : Int) ≤ st.argMaxP1.value ∧
          (countWithPriority priorityOf 2 (a .violations) : Int) ≤ st.argMaxP2.value ∧
          (countWithPriority priorityOf 3 (a .violations) : Int) ≤ st.argMaxP3.value
        then .SUCCESS else .VIOLATIONS_EXCEED_THRESHOLD) := by
  have hc : ∀ p, numberOfViolationsWithPriority priorityOf (a .violations) p =
      .ok (countWithPriority priorityOf p (a .violations)) :=
    fun p => C04_priority_count priorityOf _ p hr
  simp only [handleExit, exceedThreshold, hc, he, hasAny, numberOf, Outcome.bind_ok,
    Outcome.pure_eq]
  simp only [List.length_nil, gt_iff_lt, Nat.lt_irrefl, decide_false, Bool.false_eq_true, if_false]
  split
  · rw [if_neg (by omega)]; rfl
  · split
    · rw [if_neg (by omega)]; rfl
    · split
      · rename_i h3
        have h4 : ¬ st.argMaxP3.value < (countWithPriority priorityOf 3 (a .violations) : Int) := by
          omega
        simp [h4]
      · rename_i h3
        have h4 : st.argMaxP3.value < (countWithPriority priorityOf 3 (a .violations) : Int) := by
          omega
        simp [h4]

/-- **C18.** Without compiler errors the gate passes exactly when each count of the priorities 1, 2
and 3 is at most its limit: equality passes, one more fails. -/
theorem C18_gate (priorityOf : RuleId → Int) (st : OptionState) (a : Answers)
    (hr : ∀ v ∈ a .violations, v.rule ≠ none) (he : a .errors = []) :
    (handleExit priorityOf st a = .ok .SUCCESS ↔
      (countWithPriority priorityOf 1 (a .violations) : Int) ≤ st.argMaxP1.value ∧
      (countWithPriority priorityOf 2 (a .violations) : Int) ≤ st.argMaxP2.value ∧
      (countWithPriority priorityOf 3 (a .violations) : Int) ≤ st.argMaxP3.value) ∧
    (handleExit priorityOf st a = .ok .SUCCESS ∨
      handleExit priorityOf st a = .ok .VIOLATIONS_EXCEED_THRESHOLD) := by
  rw [handleExit_iff priorityOf st a hr he]
  split <;> simp_all

/-- **C18.** Raising limits or removing violations never turns a passing run into a failing one. -/
theorem C18_gate_monotone (priorityOf : RuleId → Int) (st st' : OptionState) (a a' : Answers)
    (hr : ∀ v ∈ a .violations, v.rule ≠ none) (hsub : (a' .violations).Sublist (a .violations))
    (he : a' .errors = []) (h1 : st.argMaxP1.value ≤ st'.argMaxP1.value)
    (h2 : st.argMaxP2.value ≤ st'.argMaxP2.value) (h3 : st.argMaxP3.value ≤ st'.argMaxP3.value)
    (h : handleExit priorityOf st a = .ok .SUCCESS) :
    handleExit priorityOf st' a' = .ok .SUCCESS := by
  have hae : a .errors = [] := by
    by_contra hne
    have : hasAny (a .errors) = true := by
      simp [hasAny, numberOf, List.length_pos_iff, hne]
    simp [handleExit, this] at h
  have hmono : ∀ p, countWithPriority priorityOf p (a' .violations) ≤
      countWithPriority priorityOf p (a .violations) := fun p =>
    (hsub.filter _).length_le
  have hg := (C18_gate priorityOf st a hr hae).1.1 h
  refine (C18_gate priorityOf st' a' (fun v hv => hr v (hsub.subset hv)) he).1.2 ?_
  have m1 := hmono 1
  have m2 := hmono 2
  have m3 := hmono 3
  omega

/-- **C18.** Not allowing duplicates never makes a passing run fail. -/
theorem C18_dedup_never_hurts (priorityOf : RuleId → Int) (h : Violation → κ) (st : OptionState)
    (c : ResultCollector) (hr : ∀ s ∈ c.collection, ∀ v ∈ s, v.rule ≠ none)
    (hp : handleExit priorityOf st (getResults h true c) = .ok .SUCCESS) :
    handleExit priorityOf st (getResults h false c) = .ok .SUCCESS := by
  have hraw : ∀ v ∈ rawAll c .violations, v.rule ≠ none := by
    intro v hv
    simp only [rawAll, collectAll_eq] at hv
    obtain ⟨s, hs, hvs⟩ := List.mem_flatten.1 hv
    exact hr s hs v hvs
  have hf : ∀ ch, getResults h false c ch = firsts (rawAll c ch) := by
    intro ch
    simp only [getResults, Bool.false_eq_true, if_false]
    rw [uniqueAll_answer]
    cases ch <;> simp [UniqueMemo.get, UniqueMemo.empty]
  have he : rawAll c .errors = [] := by
    by_contra hne
    have : hasAny (getResults h true c .errors) = true := by
      simp [hasAny, numberOf, List.length_pos_iff, hne, getResults]
    simp [handleExit, this] at hp
  refine C18_gate_monotone priorityOf st st (getResults h true c) _ ?_ ?_ ?_ (Int.le_refl _)
    (Int.le_refl _) (Int.le_refl _) hp
  · simpa [getResults] using hraw
  · rw [hf]; simpa [getResults] using firsts_sublist _
  · rw [hf, he]; rfl

/-- **C18.** Violations of rules with a priority other than 1, 2 and 3 never affect the exit code. -/
theorem C18_other_priorities (priorityOf : RuleId → Int) (st : OptionState) (a : Answers)
    (hr : ∀ v ∈ a .violations, v.rule ≠ none) :
    handleExit priorityOf st a = handleExit priorityOf st
      (fun ch => if ch = .violations then (a .violations).filter fun v =>
          decide (v.rule.map priorityOf = some 1 ∨ v.rule.map priorityOf = some 2 ∨
            v.rule.map priorityOf = some 3)
        else a ch) := by
  have hcnt : ∀ p, p = 1 ∨ p = 2 ∨ p = 3 →
      countWithPriority priorityOf p ((a .violations).filter fun v =>
        decide (v.rule.map priorityOf = some 1 ∨ v.rule.map priorityOf = some 2 ∨
          v.rule.map priorityOf = some 3)) = countWithPriority priorityOf p (a .violations) := by
    intro p hp
    unfold countWithPriority
    rw [List.filter_filter]
    congr 1
    refine List.filter_congr ?_
    intro v _
    rcases hp with rfl | rfl | rfl <;> cases h : v.rule <;> simp <;> omega
  by_cases he : a .errors = []
  · rw [handleExit_iff priorityOf st a hr he, handleExit_iff priorityOf st]
    · simp only [if_true, hcnt 1 (by simp), hcnt 2 (by simp), hcnt 3 (by simp)]
    · intro v hv
      simp only [if_true] at hv
      exact hr v (List.mem_filter.1 hv).1
    · simpa using he
  · have : hasAny (a .errors) = true := by
      simp [hasAny, numberOf, List.length_pos_iff, he]
    simp [handleExit, this]

/-- Eleven violations at priority 2 against a limit of ten, and the same against eleven. -/
example :
    let a : Answers := fun ch =>
      if ch = .violations then List.replicate 11 (exV (some 4) "a.c" "m" 1) else []
    handleExit (fun _ => 2) (OptionState.afterParsing {}) a = .ok .VIOLATIONS_EXCEED_THRESHOLD ∧
      handleExit (fun _ => 2) (OptionState.afterParsing { maxP2 := some 11 }) a = .ok .SUCCESS := by
  decide

end Oclint
