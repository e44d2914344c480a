import Verif.Lemmas.Options
import Verif.Props.Registry

/-!
# Properties C13-C16: options and configuration files
-/

namespace Oclint
open Spec

/-- System configuration of the examples. -/
def exSystem : ConfigFile :=
  { ConfigFile.initial with
    maxP1 := 7
    maxP2 := 8
    disableRules := ["A".toList]
    ruleConfigurations := [("K".toList, "1".toList)]
    rulePaths := ["p".toList] }

/-- Home configuration of the examples. -/
def exHome : ConfigFile :=
  { ConfigFile.initial with
    maxP1 := 9
    rules := ["A".toList, "B".toList]
    ruleConfigurations := [("K".toList, "2".toList)]
    rulePaths := ["q".toList] }

/-- An environment for the examples with a system and a home file but no working directory file. -/
def exEnv : Env :=
  { cwd := "/w".toList, home := some "/h".toList, binPath := "/b".toList
    fs := fun p =>
      if p = "/b/../etc/oclint".toList then some "S".toList
      else if p = "/h/.oclint".toList then some "H".toList else none
    yaml := fun s => if s = "S".toList then exSystem else exHome }

/-!
## C13

Partial, like C14: `processOptions` takes the texts of configuration files to stay readable.  They do
not (C68); `C68_options_defined` says when the code does what is proved here.
-/

/-- **C13.** When options are processed, every scalar option ends up with the command line value if
given, otherwise the value of the most important configuration file that sets it, otherwise its
default. -/
theorem C13_precedence_partial (e : Env) (cli : CommandLine) (st : OptionState)
    (h : processOptions e cli = .ok st) :
    st.argOutput.value = effective e cli.output Said.output "-".toList ∧
      st.argReportType.value = effective e cli.reportType Said.reportType "text".toList ∧
      st.argMaxP1.value = effective e cli.maxP1 Said.maxP1 0 ∧
      st.argMaxP2.value = effective e cli.maxP2 Said.maxP2 10 ∧
      st.argMaxP3.value = effective e cli.maxP3 Said.maxP3 20 ∧
      st.argGlobalAnalysis.value = effective e cli.globalAnalysis Said.globalAnalysis false ∧
      st.argClangChecker.value = effective e cli.clangChecker Said.clangChecker false ∧
      st.argDuplications.value = effective e cli.duplications Said.duplications false := by
  simp only [processOptions] at h
  cases hc : consumeRuleConfigurations cli.ruleConfiguration
      (processConfigFiles e (preserveWorkingPath e (OptionState.afterParsing cli))).configurations with
  | throws w => rw [hc] at h; simp at h
  | ub => rw [hc] at h; simp at h
  | ok c =>
    rw [hc] at h
    simp only [Outcome.bind_ok, Outcome.pure_eq, Outcome.ok.injEq] at h
    subst h
    have key : ∀ {α : Type} (get : OptionState → ClOpt α) (pick : ConfigFile → Option α)
        (pickS : Said → Option α) (given : Option α) (d : α),
        (∀ st c, get (applyConfigFile st c) = updateArgIfSet (get st) (pick c)) →
        (∀ c, pick c = pickS (said c)) →
        get (preserveWorkingPath e (OptionState.afterParsing cli)) = clInit given d →
        (get (processConfigFiles e (preserveWorkingPath e (OptionState.afterParsing cli)))).value =
          effective e given pickS d := by
      intro α get pick pickS given d h1 h2 h3
      unfold processConfigFiles
      rw [foldl_proj get pick h1, h3, foldl_update_clInit]
      unfold effective
      rw [← sources_eq e cli, List.map_map]
      simp only [h2]
      rfl
    have hp : ∀ {α : Type} (get : OptionState → ClOpt α),
        (∀ (st : OptionState) (w : Str), get { st with workingPath := w } = get st) →
        get (preserveWorkingPath e (OptionState.afterParsing cli)) =
          get (OptionState.afterParsing cli) := by
      intro α get hg
      unfold preserveWorkingPath
      split
      · exact hg _ _
      · rfl
    refine ⟨?_, ?_, ?_, ?_, ?_, ?_, ?_, ?_⟩
    · exact key OptionState.argOutput _ Said.output cli.output _ (fun _ _ => rfl)
        (fun c => createOptionalString_eq _) (hp _ (fun _ _ => rfl))
    · exact key OptionState.argReportType _ Said.reportType cli.reportType _ (fun _ _ => rfl)
        (fun c => createOptionalString_eq _) (hp _ (fun _ _ => rfl))
    · exact key OptionState.argMaxP1 _ Said.maxP1 cli.maxP1 _ (fun _ _ => rfl)
        (fun c => rfl) (hp _ (fun _ _ => rfl))
    · exact key OptionState.argMaxP2 _ Said.maxP2 cli.maxP2 _ (fun _ _ => rfl)
        (fun c => rfl) (hp _ (fun _ _ => rfl))
    · exact key OptionState.argMaxP3 _ Said.maxP3 cli.maxP3 _ (fun _ _ => rfl)
        (fun c => rfl) (hp _ (fun _ _ => rfl))
    · exact key OptionState.argGlobalAnalysis _ Said.globalAnalysis cli.globalAnalysis _
        (fun _ _ => rfl) (fun c => by simp only [said]; cases c.enableGlobalAnalysis <;> rfl)
        (hp _ (fun _ _ => rfl))
    · exact key OptionState.argClangChecker _ Said.clangChecker cli.clangChecker _
        (fun _ _ => rfl) (fun c => by simp only [said]; cases c.clangChecker <;> rfl)
        (hp _ (fun _ _ => rfl))
    · exact key OptionState.argDuplications _ Said.duplications cli.duplications _
        (fun _ _ => rfl) (fun c => by simp only [said]; cases c.allowDuplicatedViolations <;> rfl)
        (hp _ (fun _ _ => rfl))

/-- **C13.** Options are always processed successfully (arguments shorter than 2^31 bytes). -/
theorem C13_processing_succeeds_partial (e : Env) (cli : CommandLine)
    (hlen : ∀ s ∈ cli.ruleConfiguration, s.length < 2147483648) :
    ∃ st, processOptions e cli = .ok st := by
  simp only [processOptions]
  obtain ⟨rc, h, _⟩ := consume_eq cli.ruleConfiguration hlen
    (processConfigFiles e (preserveWorkingPath e (OptionState.afterParsing cli))).configurations
  rw [h]
  exact ⟨_, rfl⟩

/-- The home file beats the system file for priority 1; priority 2 comes from the system file; the
command line decides priority 3 and the report type is the default. -/
example : effective exEnv none Said.maxP1 0 = 9 ∧ effective exEnv none Said.maxP2 10 = 8 ∧
    effective exEnv (some 5) Said.maxP3 20 = 5 ∧
    effective exEnv none Said.reportType "text".toList = "text".toList := by decide

/-! ## C14 -/

/-- **C14.** Rule load paths accumulate, command line first, then the configuration files from
system to working directory; without any, the default directory is used. -/
theorem C14_rule_paths_partial (e : Env) (cli : CommandLine) (st : OptionState)
    (h : processOptions e cli = .ok st) :
    rulesPath e st =
      (match cli.rulesPath ++ (sources e).flatMap ConfigFile.rulePaths with
        | [] => [e.binPath ++ "/../lib/oclint/rules".toList]
        | p :: ps => p :: ps) := by
  simp only [processOptions] at h
  cases hc : consumeRuleConfigurations cli.ruleConfiguration
      (processConfigFiles e (preserveWorkingPath e (OptionState.afterParsing cli))).configurations with
  | throws w => rw [hc] at h; simp at h
  | ub => rw [hc] at h; simp at h
  | ok c =>
    rw [hc] at h
    simp only [Outcome.bind_ok, Outcome.pure_eq, Outcome.ok.injEq] at h
    subst h
    unfold rulesPath
    simp only
    have hr : (processConfigFiles e (preserveWorkingPath e (OptionState.afterParsing cli))).argRulesPath
        = cli.rulesPath ++ (sources e).flatMap ConfigFile.rulePaths := by
      unfold processConfigFiles
      rw [foldl_rulesPath, ← sources_eq e cli, List.flatMap_map]
      congr 1
      unfold preserveWorkingPath
      split <;> rfl
    rw [hr]
    cases hl : cli.rulesPath ++ (sources e).flatMap ConfigFile.rulePaths with
    | nil => simp [Env.libPath, Env.installPrefix]
    | cons p ps => simp

/-- **C14.** The rule configuration is the result of all settings in order: system, home, working
directory, then the command line arguments, each split as specified. -/
theorem C14_rule_configuration_partial (e : Env) (cli : CommandLine) (st : OptionState)
    (hlen : ∀ s ∈ cli.ruleConfiguration, s.length < 2147483648)
    (h : processOptions e cli = .ok st) :
    ∃ rc, List.Forall₂ (fun s (kv : Str × Str) => IsSplit s kv.1 kv.2) cli.ruleConfiguration rc ∧
      ∀ key d, st.configurations.stringForKey key d =
        .ok ((configured key (settings e rc)).getD d, st.configurations) := by
  simp only [processOptions] at h
  obtain ⟨rc, hc, hrc⟩ := consume_eq cli.ruleConfiguration hlen
    (processConfigFiles e (preserveWorkingPath e (OptionState.afterParsing cli))).configurations
  rw [hc] at h
  simp only [Outcome.bind_ok, Outcome.pure_eq, Outcome.ok.injEq] at h
  subst h
  refine ⟨rc, hrc, ?_⟩
  simp only
  have hcfg : (processConfigFiles e (preserveWorkingPath e (OptionState.afterParsing cli))).configurations
      = addAll none ((sources e).flatMap ConfigFile.ruleConfigurations) := by
    unfold processConfigFiles
    rw [foldl_configurations, ← sources_eq e cli, List.flatMap_map]
    congr 1
    unfold preserveWorkingPath
    split <;> rfl
  rw [hcfg]
  have hset : settings e rc =
      (((sources e).flatMap ConfigFile.ruleConfigurations) ++ rc).map
        fun kv => CfgOp.set kv.1 kv.2 := by
    unfold settings
    rw [List.map_append, List.map_flatMap]
  have hrun : (settings e rc).foldlM applyCfg none =
      .ok (addAll (addAll none ((sources e).flatMap ConfigFile.ruleConfigurations)) rc) := by
    rw [hset, addAll_ops]
    simp [addAll]
  exact (C07_configuration_is_a_map _ _ hrun).2.1

/-- **C14.** Which rules run is decided by all requests in order, the command line last; in
particular a command line `-disable-rule` always wins. -/
theorem C14_rule_selection_partial (e : Env) (cli : CommandLine) (st : OptionState)
    (h : processOptions e cli = .ok st) (name : Str) :
    (st.filter.accepts name = true ↔ Selected (requests e cli) name) ∧
      (name ∈ cli.disabledRules → st.filter.accepts name = false) := by
  simp only [processOptions] at h
  cases hc : consumeRuleConfigurations cli.ruleConfiguration
      (processConfigFiles e (preserveWorkingPath e (OptionState.afterParsing cli))).configurations with
  | throws w => rw [hc] at h; simp at h
  | ub => rw [hc] at h; simp at h
  | ok c =>
    rw [hc] at h
    simp only [Outcome.bind_ok, Outcome.pure_eq, Outcome.ok.injEq] at h
    subst h
    simp only
    have hf : ((processConfigFiles e (preserveWorkingPath e (OptionState.afterParsing cli))).filter.enableRules
        cli.enabledRules).disableRules cli.disabledRules = filterAfter (requests e cli) := by
      rw [enableDisable_eq]
      unfold processConfigFiles
      rw [foldl_filter]
      have hinit : (preserveWorkingPath e (OptionState.afterParsing cli)).filter =
          RulesetFilter.empty := by
        unfold preserveWorkingPath; split <;> rfl
      rw [hinit]
      unfold filterAfter requests
      rw [← sources_eq e cli, List.flatMap_map, List.append_assoc, List.foldl_append,
        List.foldl_append, List.foldl_append]
    rw [hf]
    refine ⟨accepts_iff _ _, ?_⟩
    intro hd
    cases ha : (filterAfter (requests e cli)).accepts name with
    | false => rfl
    | true =>
      exfalso
      have hsel := ((accepts_iff _ _).1 ha).1
      apply hsel
      unfold requests lastRequest
      rw [List.reverse_append, List.find?_append]
      have : ∃ r, ((cli.disabledRules.map (Request.mk false)).reverse.find?
          fun r => decide (r.name = name)) = some r ∧ r.enable = false := by
        cases hfd : ((cli.disabledRules.map (Request.mk false)).reverse.find?
            fun r => decide (r.name = name)) with
        | none =>
          rw [List.find?_eq_none] at hfd
          have := hfd ⟨false, name⟩ (by simp [hd])
          simp at this
        | some r =>
          refine ⟨r, rfl, ?_⟩
          have := List.mem_of_find?_eq_some hfd
          simp only [List.mem_reverse, List.mem_map] at this
          obtain ⟨n, _, rfl⟩ := this
          rfl
      obtain ⟨r, hr, hre⟩ := this
      rw [hr]
      simp [hre]

/-- A command line of the examples. -/
def exCli : CommandLine :=
  { rulesPath := ["c".toList]
    ruleConfiguration := ["X=Y=3".toList]
    disabledRules := ["B".toList] }

example : ∃ st, processOptions exEnv exCli = .ok st ∧
    rulesPath exEnv st = ["c".toList, "p".toList, "q".toList] ∧
    st.configurations.stringForKey "K".toList [] = .ok ("2".toList, st.configurations) ∧
    st.configurations.stringForKey "X=Y".toList [] = .ok ("3".toList, st.configurations) ∧
    st.filter.accepts "A".toList = true ∧ st.filter.accepts "B".toList = false :=
  ⟨_, rfl, by decide +kernel, by decide +kernel, by decide +kernel, by decide +kernel, by decide +kernel⟩

/-! ## C15 -/

/-- **C15.** What becomes of every `-rc` argument (a `std::string` is shorter than 2^63). -/
theorem C15_rc_split_any (s : Str) (h63 : s.length < 9223372036854775808) :
    RcSplit s (splitRuleConfiguration s) := rcSplit s h63

/-- **C15.** A `-rc` argument is split at its last equals sign, or used as both key and value when
there is none; the split is the only one allowed by the specification.  The sign has to be among the
first 2^31 - 1 characters. -/
theorem C15_rc_split (s : Str) (h63 : s.length < 9223372036854775808)
    (hfit : ∀ a b, s = a ++ '=' :: b → a.length < 2147483647) :
    ∃ k v, splitRuleConfiguration s = .ok (k, v) ∧ IsSplit s k v ∧
      ∀ k' v', IsSplit s k' v' → k' = k ∧ v' = v := by
  obtain ⟨k, v, h1, h2⟩ := splitRc_fits s h63 hfit
  refine ⟨k, v, h1, h2, ?_⟩
  intro k' v' h'
  rcases h2 with ⟨e, hn⟩ | ⟨hn, rfl, rfl⟩
  · rcases h' with ⟨e', hn'⟩ | ⟨hn', _, _⟩
    · exact lastSplit_unique (e.symm.trans e') hn hn'
    · exfalso; apply hn'; rw [e]; simp
  · rcases h' with ⟨e', _⟩ | ⟨_, rfl, rfl⟩
    · exfalso; apply hn; rw [e']; simp
    · exact ⟨rfl, rfl⟩

/-- **C15.** The sign has to be there: one character later is undefined behaviour, two later an
exception that ends the program. -/
theorem C15_far_witness :
    splitRuleConfiguration (List.replicate 2147483647 'K' ++ ['=', '1']) = .ub ∧
      ∃ w, splitRuleConfiguration (List.replicate 2147483648 'K' ++ ['=', '1']) = .throws w := by
  have hl : ∀ n : Nat, (List.replicate n 'K' ++ ['=', '1']).length = n + 2 := by
    intro n
    rw [List.length_append, List.length_replicate]
    rfl
  have key : ∀ (n : Nat) (a b : Str), List.replicate n 'K' ++ ['=', '1'] = a ++ '=' :: b → '=' ∉ b →
      a.length = n := by
    intro n a b h hb
    rw [(lastSplit_unique h (by decide) hb).1, List.length_replicate]
  have hno : ∀ n : Nat, '=' ∉ List.replicate n 'K' ++ ['=', '1'] → False := by
    intro n h
    exact h (List.mem_append_right _ (List.mem_cons_self ..))
  constructor
  · have h := C15_rc_split_any (List.replicate 2147483647 'K' ++ ['=', '1']) (by rw [hl]; omega)
    have hk := key 2147483647
    have hn := hno 2147483647
    generalize List.replicate 2147483647 'K' ++ ['=', '1'] = s at h hk hn
    generalize splitRuleConfiguration s = o at h
    cases h with
    | whole h => exact (hn h).elim
    | atLast a b h1 h2 h3 => have := hk a b h1 h2; omega
    | overflow a b h1 h2 h3 => rfl
    | negative a b h1 h2 h3 => have := hk a b h1 h2; omega
    | unseen a b h1 h2 h3 => have := hk a b h1 h2; omega
    | elsewhere a b h1 h2 h3 => have := hk a b h1 h2; omega
  · have h := C15_rc_split_any (List.replicate 2147483648 'K' ++ ['=', '1']) (by rw [hl]; omega)
    have hk := key 2147483648
    have hn := hno 2147483648
    generalize List.replicate 2147483648 'K' ++ ['=', '1'] = s at h hk hn
    generalize splitRuleConfiguration s = o at h
    cases h with
    | whole h => exact (hn h).elim
    | atLast a b h1 h2 h3 => have := hk a b h1 h2; omega
    | overflow a b h1 h2 h3 => have := hk a b h1 h2; omega
    | negative a b h1 h2 h3 => exact ⟨_, rfl⟩
    | unseen a b h1 h2 h3 => have := hk a b h1 h2; omega
    | elsewhere a b h1 h2 h3 => have := hk a b h1 h2; omega

example : splitRuleConfiguration "A=B=7".toList = .ok ("A=B".toList, "7".toList) ∧
    splitRuleConfiguration "NOVALUE".toList = .ok ("NOVALUE".toList, "NOVALUE".toList) ∧
    splitRuleConfiguration "K=".toList = .ok ("K".toList, []) := by decide +kernel

/-! ## C16 -/

/-- **C16.** The report path is the effective `-o` value if it is absolute, else the recorded working
directory, a slash and the value; the empty value throws and nothing is undefined. -/
theorem C16_output_path (e : Env) (cli : CommandLine) (st : OptionState)
    (h : processOptions e cli = .ok st) :
    let o := effective e cli.output Said.output "-".toList
    (hasOutputPath st = true ↔ o ≠ "-".toList) ∧
      (o = [] → ∃ w, outputPath st = .throws w) ∧
      (∀ rest, o = '/' :: rest → outputPath st = .ok o) ∧
      (∀ c rest, c ≠ '/' → o = c :: rest →
        outputPath st = .ok (recordedCwd e ++ '/' :: o)) := by
  have hv := (C13_precedence_partial e cli st h).1
  have hw : st.workingPath = recordedCwd e := by
    simp only [processOptions] at h
    cases hc : consumeRuleConfigurations cli.ruleConfiguration
        (processConfigFiles e (preserveWorkingPath e (OptionState.afterParsing cli))).configurations with
    | throws w => rw [hc] at h; simp at h
    | ub => rw [hc] at h; simp at h
    | ok c =>
      rw [hc] at h
      simp only [Outcome.bind_ok, Outcome.pure_eq, Outcome.ok.injEq] at h
      subst h
      simp only
      unfold processConfigFiles
      rw [foldl_workingPath, preserve_workingPath]
  intro o
  have ho : st.argOutput.value = o := hv
  refine ⟨?_, ?_, ?_, ?_⟩
  · unfold hasOutputPath; rw [ho]; simp
  · intro h0; unfold outputPath; rw [ho, h0]; exact ⟨_, rfl⟩
  · intro rest h0; unfold outputPath; rw [ho, h0]; simp
  · intro c rest hc h0; unfold outputPath; rw [ho, h0]; simp [hc, hw]

/-- **C16, partial.** What a user expects is resolution against the real working directory; that
holds when the working directory's name has at most 299 bytes. -/
theorem C16_relative_to_cwd_partial (e : Env) (cli : CommandLine) (st : OptionState)
    (h : processOptions e cli = .ok st) (hcwd : e.cwd.length < 300) (c : Char) (rest : Str)
    (hc : c ≠ '/') (ho : effective e cli.output Said.output "-".toList = c :: rest) :
    outputPath st = .ok (e.cwd ++ '/' :: c :: rest) := by
  have := (C16_output_path e cli st h).2.2.2 c rest hc ho
  rw [this, ho, recordedCwd, if_pos hcwd]

/-- **C16, witness.** In a directory whose name has 300 bytes, `-o report` is resolved against the
root directory. -/
theorem C16_long_cwd_witness :
    ∃ (e : Env) (st : OptionState), e.cwd.length = 300 ∧
      processOptions e { output := some "report".toList } = .ok st ∧
      outputPath st = .ok "/report".toList := by
  refine ⟨{ exEnv with cwd := List.replicate 300 'd' }, _, List.length_replicate, rfl, ?_⟩
  decide +kernel

example : ∃ st, processOptions exEnv { output := some "r.xml".toList } = .ok st ∧
    outputPath st = .ok "/w/r.xml".toList := ⟨_, rfl, by decide +kernel⟩

end Oclint
