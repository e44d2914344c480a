import Verif.Spec.WriteFailure
import Verif.Props.Console
import Verif.Props.ReportRun

/-!
# Full devices (C103)
-/

namespace Oclint
open Spec

/-- A stream that has been given a text. -/
def Fed (room : Option Nat) (t : Str) (s : OStream) : Prop :=
  s.arrived = landed room t ∧ (s.good = true ↔ Enough room t)

theorem given_fresh (room : Option Nat) : Fed room [] OStream.fresh := by
  refine ⟨?_, ?_⟩
  · cases room <;> simp [OStream.fresh, landed]
  · simp [OStream.fresh, Enough]

theorem given_put {room : Option Nat} {t : Str} {s : OStream} (h : Fed room t s) (p : Str) :
    Fed room (t ++ p) (s.put room p) := by
  obtain ⟨h1, h2⟩ := h
  unfold OStream.put
  cases room with
  | none =>
    have hg : s.good = true := h2.2 (by intro n h; cases h)
    rw [if_pos hg]
    refine ⟨?_, ?_⟩
    · simp [fits, h1, landed]
    · simp [fits, Enough]
  | some n =>
    have hen : ∀ t : Str, Enough (some n) t ↔ t.length ≤ n := by
      intro t
      unfold Enough
      simp
    rw [hen] at h2
    replace h1 : s.arrived = t.take n := h1
    by_cases hg : s.good = true
    · have hle := h2.1 hg
      rw [if_pos hg]
      rw [List.take_of_length_le hle] at h1
      unfold Fed
      rw [hen]
      simp only [fits, landed, h1, decide_eq_true_eq, List.length_append]
      refine ⟨?_, ?_⟩
      · rw [List.take_append, List.take_of_length_le hle]
        congr 1
        rw [Nat.min_comm, List.take_eq_take_min (i := n - t.length)]
      · omega
    · have hgt := fun h => hg (h2.2 h)
      rw [if_neg hg]
      unfold Fed
      rw [hen]
      refine ⟨?_, ?_⟩
      · rw [h1]
        show t.take n = (t ++ p).take n
        rw [List.take_append_of_le_length (Nat.le_of_not_le hgt)]
      · rw [List.length_append]
        constructor
        · intro h; exact absurd h hg
        · intro h; exact absurd (by omega) hgt

theorem given_puts {room : Option Nat} {t : Str} {s : OStream} (h : Fed room t s) (ps : List Str) :
    Fed room (t ++ ps.flatten) (s.puts room ps) := by
  unfold OStream.puts
  induction ps generalizing t s with
  | nil => simpa using h
  | cons p ps ih =>
    rw [List.foldl_cons, List.flatten_cons, ← List.append_assoc]
    exact ih (given_put h p)

/-- The devices of a program that has written to this console. -/
structure Mirrors (room : Room) (k : Console) (d : Devices) : Prop where
  screen : Fed (room none) k.out d.cout
  err : d.err = k.err
  log : d.log = k.log
  files : d.files.map (fun f => (f.1, f.2.arrived)) =
    k.files.map fun f => (f.1, landed (room (some f.1)) f.2)

/-- Two outcomes that agree up to the devices. -/
inductive Parallel {α : Type} (room : Room) : Outcome (Console × α) → Outcome (Devices × α) → Prop where
  | ub : Parallel room .ub .ub
  | throws (w : Str) : Parallel room (.throws w) (.throws w)
  | ok (k : Console) (d : Devices) (a : α) : Mirrors room k d → Parallel room (.ok (k, a)) (.ok (d, a))

variable {U σ κ : Type}

theorem mirrors_complain {room : Room} {k : Console} {d : Devices} (h : Mirrors room k d) (w : Str) :
    Mirrors room (printErrorLine k w) (d.complain w) := by
  obtain ⟨h1, h2, h3, h4⟩ := h
  refine ⟨h1, ?_, h3, h4⟩
  show d.err ++ _ ++ _ ++ _ ++ _ = k.err ++ _ ++ _ ++ _ ++ _
  rw [h2]

theorem mirrors_list {room : Room} {k : Console} {d : Devices} (h : Mirrors room k d)
    (filter : RulesetFilter) (reg : Registry) (ident : RuleId → Str) :
    Parallel room (listRules k filter reg ident >>= fun c => pure (c, ()))
      (listRulesDevice room d filter reg ident >>= fun d => pure (d, ())) := by
  unfold listRules listRulesDevice
  cases filter.filteredRuleNames reg ident with
  | ub => exact .ub
  | throws w => exact .throws w
  | ok names =>
    refine .ok _ _ _ ?_
    obtain ⟨h1, h2, h3, h4⟩ := h
    have key : ∀ (names : List Str) (k : Console) (o : OStream), Fed (room none) k.out o →
        (Fed (room none) (names.foldl (fun (c : Console) n =>
            { c with out := c.out ++ "- ".toList ++ n ++ ['\n'] }) k).out
          (names.foldl (fun o n => o.puts (room none) ["- ".toList, n, ['\n']]) o)) ∧
        (names.foldl (fun (c : Console) n =>
            { c with out := c.out ++ "- ".toList ++ n ++ ['\n'] }) k).err = k.err ∧
        (names.foldl (fun (c : Console) n =>
            { c with out := c.out ++ "- ".toList ++ n ++ ['\n'] }) k).log = k.log ∧
        (names.foldl (fun (c : Console) n =>
            { c with out := c.out ++ "- ".toList ++ n ++ ['\n'] }) k).files = k.files := by
      intro names
      induction names with
      | nil => intro k o h; exact ⟨h, rfl, rfl, rfl⟩
      | cons n names ih =>
        intro k o h
        rw [List.foldl_cons, List.foldl_cons]
        refine ih _ _ ?_
        have := given_puts h ["- ".toList, n, ['\n']]
        simpa only [List.flatten_cons, List.flatten_nil, List.append_nil, List.append_assoc] using this
    have h0 := given_puts h1 ["Enabled rules:".toList, ['\n']]
    simp only [List.flatten_cons, List.flatten_nil, List.append_nil, ← List.append_assoc] at h0
    obtain ⟨k1, k2, k3, k4⟩ := key names
      { k with out := k.out ++ "Enabled rules:".toList ++ ['\n'] } _ h0
    refine ⟨given_put k1 ['\n'], ?_, ?_, ?_⟩
    · exact h2.trans k2.symm
    · exact h3.trans k3.symm
    · exact h4.trans (congrArg _ k4.symm)

theorem mirrors_exceed {room : Room} {k : Console} {d : Devices} (h : Mirrors room k d)
    (prio : RuleId → Int) (st : OptionState) (results : Answers) :
    Parallel room (printExceedError k prio st results >>= fun c => pure (c, ()))
      (exceedErrorDevice d prio st results >>= fun d => pure (d, ())) := by
  unfold printExceedError exceedErrorDevice
  cases numberOfViolationsWithPriority prio (results .violations) 1 with
  | ub => exact .ub
  | throws w => exact .throws w
  | ok n1 =>
    cases numberOfViolationsWithPriority prio (results .violations) 2 with
    | ub => exact .ub
    | throws w => exact .throws w
    | ok n2 =>
      cases numberOfViolationsWithPriority prio (results .violations) 3 with
      | ub => exact .ub
      | throws w => exact .throws w
      | ok n3 =>
        refine .ok _ _ _ ?_
        obtain ⟨h1, h2, h3, h4⟩ := mirrors_complain h "violations exceed threshold".toList
        refine ⟨h1, ?_, h3, h4⟩
        simp only [h2, List.append_assoc]

theorem mirrors_exit {room : Room} {k : Console} {d : Devices} (h : Mirrors room k d)
    (prio : RuleId → Int) (st : OptionState) (results : Answers) :
    Parallel room (handleExitConsole prio st results k) (handleExitDevice prio st results d) := by
  unfold handleExitConsole handleExitDevice
  split
  · exact .ok _ _ _ h
  · cases exceedThreshold prio st results with
    | ub => exact .ub
    | throws w => exact .throws w
    | ok e =>
      cases e with
      | false => exact .ok _ _ _ h
      | true =>
        have hx := mirrors_exceed h prio st results
        show Parallel room (printExceedError k prio st results >>= fun c => pure (c, _))
          (exceedErrorDevice d prio st results >>= fun d => pure (d, _))
        cases h1 : printExceedError k prio st results with
        | ub =>
          rw [h1] at hx
          cases h2 : exceedErrorDevice d prio st results with
          | ub => exact .ub
          | throws w => rw [h2] at hx; cases hx
          | ok d' => rw [h2] at hx; cases hx
        | throws w =>
          rw [h1] at hx
          cases h2 : exceedErrorDevice d prio st results with
          | ub => rw [h2] at hx; cases hx
          | throws w' => rw [h2] at hx; cases hx; exact .throws _
          | ok d' => rw [h2] at hx; cases hx
        | ok k' =>
          rw [h1] at hx
          cases h2 : exceedErrorDevice d prio st results with
          | ub => rw [h2] at hx; cases hx
          | throws w' => rw [h2] at hx; cases hx
          | ok d' =>
            rw [h2] at hx
            cases hx with
            | ok _ _ _ hm => exact .ok _ _ _ hm

theorem mirrors_to {room : Room} {k : Console} {d : Devices} (h : Mirrors room k d)
    (dest : Option Str) (pieces : List Str) :
    Mirrors room (writeReport k dest pieces.flatten) (reportTo room d dest pieces) := by
  obtain ⟨h1, h2, h3, h4⟩ := h
  cases dest with
  | none => exact ⟨given_puts h1 pieces, h2, h3, h4⟩
  | some f =>
    refine ⟨h1, h2, h3, ?_⟩
    show List.map _ (d.files ++ _) = List.map _ (k.files ++ _)
    rw [List.map_append, List.map_append, h4]
    have := (given_puts (given_fresh (room (some f))) pieces).1
    rw [List.nil_append] at this
    simp only [List.map_cons, List.map_nil, this]

theorem mirrors_report {room : Room} {k : Console} {d : Devices} (h : Mirrors room k d)
    (m : Machine U σ κ) (v : Voices U) (pieces : Str → Answers → List Str)
    (hp : ∀ r a, (pieces r a).flatten = v.text r a) (st : OptionState) (reporter : Str)
    (results : Answers) :
    Parallel room (reportConsole m v.text st reporter results k)
      (reportDevice m room pieces st reporter results d) := by
  unfold reportConsole reportDevice
  cases outStream m.canOpen st with
  | ub => exact .ub
  | throws w => exact .ok _ _ _ (mirrors_complain h w)
  | ok dest =>
    have ht := mirrors_to h dest (pieces reporter results)
    rw [hp] at ht
    simp only
    cases m.report reporter results with
    | ub => exact .ub
    | throws w => exact .ok _ _ _ (mirrors_complain ht w)
    | ok u => exact .ok _ _ _ ht

theorem mirrors_analysis [DecidableEq κ] {room : Room} {k : Console} {d : Devices}
    (h : Mirrors room k d) (m : Machine U σ κ) (v : Voices U) (pieces : Str → Answers → List Str)
    (hp : ∀ r a, (pieces r a).flatten = v.text r a) (st : OptionState) (verbose : Bool)
    (rules : List RuleId) (reporter : Str) :
    Parallel room (analysisConsole m v st verbose rules reporter k)
      (analysisDevice m v room pieces st verbose rules reporter d) := by
  unfold analysisConsole analysisDevice
  generalize verboseRun verbose v.mainFile m.toolchain m.mainExecutable st.argGlobalAnalysis.value
    st.argClangChecker.value ⟨rules, m.takeoff⟩ ⟨m.env.cwd, ResultCollector.empty, m.initialRules⟩
    m.db m.sources = x
  obtain ⟨err, said, res⟩ := x
  have h' : Mirrors room { k with err := k.err ++ err, log := k.log ++ said }
      { d with err := d.err ++ err, log := d.log ++ said } := by
    obtain ⟨h1, h2, h3, h4⟩ := h
    exact ⟨h1, by rw [h2], by rw [h3], h4⟩
  cases res with
  | ub => exact .ub
  | throws w => exact .ok _ _ _ (mirrors_complain h' w)
  | ok ds =>
    show Parallel room (finishConsole m v.text st reporter ds.collector _)
      (finishDevice m room pieces st reporter ds.collector _)
    unfold finishConsole finishDevice
    dsimp only
    have hr := mirrors_report h' m v pieces hp st reporter
      (getResults m.hash st.argDuplications.value ds.collector)
    generalize reportConsole m v.text st reporter
      (getResults m.hash st.argDuplications.value ds.collector) _ = a at hr ⊢
    generalize reportDevice m room pieces st reporter
      (getResults m.hash st.argDuplications.value ds.collector) _ = b at hr ⊢
    cases hr with
    | ub => exact .ub
    | throws w => exact .throws w
    | ok k' d' e hm =>
      cases e with
      | some e => exact .ok _ _ _ hm
      | none => exact mirrors_exit hm _ _ _

/-- Before the rules run, only standard error is written. -/
theorem prepare_silent (m : Machine U σ κ) (v : Voices U) (st : OptionState) (c0 : Console)
    (h0 : c0 = ⟨[], c0.err, [], []⟩) :
    ∀ c x, prepareConsole m v st c0 = .ok (c, x) → c = ⟨[], c.err, [], []⟩ := by
  have hErr : ∀ (c : Console) s, c = ⟨[], c.err, [], []⟩ →
      c.toErr s = ⟨[], (c.toErr s).err, [], []⟩ := by
    intro c s h
    unfold Console.toErr
    rw [h]
  have hLine : ∀ (c : Console) s, c = ⟨[], c.err, [], []⟩ →
      printErrorLine c s = ⟨[], (printErrorLine c s).err, [], []⟩ := by
    intro c s h
    unfold printErrorLine
    rw [h]
  intro c x h
  unfold prepareConsole at h
  dsimp only at h
  generalize loudRulesPath v.dlerror m.listing m.ruleLibrary ⟨[], none⟩ (rulesPath m.env st) = r at h
  obtain ⟨said, res⟩ := r
  have h1 := hErr c0 said h0
  dsimp only at h
  cases res with
  | ub => cases h
  | throws w => cases h; exact hLine _ _ h1
  | ok ld =>
    dsimp only at h
    split at h
    · cases h; exact hLine _ _ h1
    · unfold reporterConsole at h
      dsimp only at h
      generalize loudReporter v.dlerror m.listing m.reporterLibrary st.argReportType.value
        (reporterPath m.env) = r at h
      obtain ⟨said', res'⟩ := r
      have h2 := hErr _ said' h1
      dsimp only at h
      cases res' with
      | ub => cases h
      | throws w => cases h; exact hLine _ _ h2
      | ok q => cases h; exact h2

/-- The program on devices, step by step beside the program on a console. -/
theorem mirrors_main [DecidableEq κ] (m : Machine U σ κ) (v : Voices U) (room : Room)
    (pieces : Str → Answers → List Str) (hp : ∀ r a, (pieces r a).flatten = v.text r a)
    (cli : Option CommandLine) : Parallel room (mainConsole m v cli) (mainDevice m v room pieces cli) := by
  have hempty : ∀ e, Mirrors room ⟨[], e, [], []⟩ ⟨OStream.fresh, e, [], []⟩ :=
    fun e => ⟨given_fresh _, rfl, rfl, rfl⟩
  cases cli with
  | none => exact .ok _ _ _ (hempty v.parserError)
  | some cli =>
    unfold mainConsole mainDevice
    dsimp only
    cases hst : processOptions m.env cli with
    | ub => exact .ub
    | throws w => exact .throws w
    | ok st =>
      simp only [bind_ok']
      have hprep : ∀ c x, prepareConsole m v st (Console.empty.toErr v.configErrors) = .ok (c, x) →
          c = ⟨[], c.err, [], []⟩ := prepare_silent m v st _ rfl
      cases hx : prepareConsole m v st (Console.empty.toErr v.configErrors) with
      | ub => exact .ub
      | throws w => exact .throws w
      | ok y =>
        obtain ⟨c, x⟩ := y
        have hc := hprep c x hx
        have hm : Mirrors room c ⟨OStream.fresh, c.err, [], []⟩ := by
          have := hempty c.err
          rw [← hc] at this
          exact this
        cases x with
        | inl status => exact .ok _ _ _ hm
        | inr y =>
          obtain ⟨registry, reporter⟩ := y
          show Parallel room (runConsole m v st cli registry reporter c)
            (runDevice m v room pieces st cli registry reporter _)
          unfold runConsole runDevice
          have hl : ∃ a b, listIfAsked m st cli.listEnabledRules registry c = a ∧
              listDevice m room st cli.listEnabledRules registry ⟨OStream.fresh, c.err, [], []⟩ = b ∧
              Parallel room (a >>= fun c => pure (c, ())) (b >>= fun d => pure (d, ())) := by
            refine ⟨_, _, rfl, rfl, ?_⟩
            unfold listIfAsked listDevice
            cases cli.listEnabledRules with
            | true => exact mirrors_list hm _ _ _
            | false => exact .ok _ _ _ hm
          obtain ⟨a, b, ha, hb, hl⟩ := hl
          rw [ha, hb]
          have hfin : ∀ k d, Mirrors room k d → Parallel room
              (st.filter.filteredRules registry m.ruleIdentifier >>= fun rules =>
                analysisConsole m v st cli.verbose rules reporter k)
              (st.filter.filteredRules registry m.ruleIdentifier >>= fun rules =>
                analysisDevice m v room pieces st cli.verbose rules reporter d) := by
            intro k d hkd
            cases st.filter.filteredRules registry m.ruleIdentifier with
            | ub => exact .ub
            | throws w => exact .throws w
            | ok rules => exact mirrors_analysis hkd m v pieces hp st cli.verbose rules reporter
          cases a with
          | ub =>
            cases b with
            | ub => exact .ub
            | throws w => cases hl
            | ok d => cases hl
          | throws w =>
            cases b with
            | ub => cases hl
            | throws w => cases hl; exact .throws _
            | ok d => cases hl
          | ok k =>
            cases b with
            | ub => cases hl
            | throws w => cases hl
            | ok d =>
              cases hl with
              | ok _ _ _ hm => exact hfin k d hm

/-- However much room there is: the program ends in the same way and with the same exit code, says the
same on standard error, and what arrives on standard output and in the report file is the beginning of
what was written, as far as there is room. -/
theorem C103_devices [DecidableEq κ] (m : Machine U σ κ) (v : Voices U) (room : Room)
    (pieces : Str → Answers → List Str) (hp : ∀ r a, (pieces r a).flatten = v.text r a)
    (cli : Option CommandLine) (code : ExitCode) :
    (∀ k, mainConsole m v cli = .ok (k, code) →
        ∃ d, mainDevice m v room pieces cli = .ok (d, code) ∧ Holds room k d) ∧
      (∀ d, mainDevice m v room pieces cli = .ok (d, code) →
        ∃ k, mainConsole m v cli = .ok (k, code) ∧ Holds room k d) := by
  have h := mirrors_main m v room pieces hp cli
  generalize mainConsole m v cli = a at h
  generalize mainDevice m v room pieces cli = b at h
  cases h with
  | ub => exact ⟨fun _ h => (by cases h), fun _ h => (by cases h)⟩
  | throws w => exact ⟨fun _ h => (by cases h), fun _ h => (by cases h)⟩
  | ok k d e hm =>
    have hh : Holds room k d := ⟨hm.screen.1, hm.err, hm.log, hm.files⟩
    constructor
    · intro k' h
      cases h
      exact ⟨d, rfl, hh⟩
    · intro d' h
      cases h
      exact ⟨k, rfl, hh⟩

/-- The exit code does not depend on whether the report could be written. -/
theorem C103_exit [DecidableEq κ] (m : Machine U σ κ) (v : Voices U) (room : Room)
    (pieces : Str → Answers → List Str) (hp : ∀ r a, (pieces r a).flatten = v.text r a)
    (cli : Option CommandLine) (code : ExitCode) :
    (∃ d, mainDevice m v room pieces cli = .ok (d, code)) ↔ mainProgram m cli = .ok code := by
  rw [← C89_exit m v cli code]
  constructor
  · rintro ⟨d, h⟩
    obtain ⟨k, h, -⟩ := (C103_devices m v room pieces hp cli code).2 d h
    exact ⟨k, h⟩
  · rintro ⟨k, h⟩
    obtain ⟨d, h, -⟩ := (C103_devices m v room pieces hp cli code).1 k h
    exact ⟨d, h⟩

/-- If there is room for everything, everything is there: after exit code 0, 5 or 6 the whole report is
in its place. -/
theorem C103_complete_partial [DecidableEq κ] (m : Machine U σ κ) (v : Voices U) (room : Room)
    (pieces : Str → Answers → List Str) (hp : ∀ r a, (pieces r a).flatten = v.text r a)
    (cli : Option CommandLine) (code : ExitCode) (d : Devices)
    (h : mainDevice m v room pieces cli = .ok (d, code))
    (hroom : ∀ k, mainConsole m v cli = .ok (k, code) → Enough (room none) k.out ∧
      ∀ f ∈ k.files, Enough (room (some f.1)) f.2) :
    ∃ k, mainConsole m v cli = .ok (k, code) ∧ Complete k d := by
  obtain ⟨k, h1, h2⟩ := (C103_devices m v room pieces hp cli code).2 d h
  have hl : ∀ r (s : Str), Enough r s → landed r s = s := by
    intro r s h
    cases r with
    | none => rfl
    | some n => exact List.take_of_length_le (h n rfl)
  refine ⟨k, h1, ?_, ?_⟩
  · rw [h2.screen, hl _ _ (hroom k h1).1]
  · rw [h2.files]
    have := (hroom k h1).2
    revert this
    generalize k.files = fs
    intro hf
    induction fs with
    | nil => rfl
    | cons f fs ih =>
      rw [List.map_cons, ih fun g hg => hf g (by simp [hg]), hl _ _ (hf f (by simp))]

/-- The JSON run of the long line rule, with a disk that takes twelve characters: the file has the
beginning of the report only, nothing is said, and the exit code is that of success. -/
theorem C103_witness : ∃ d, mainDevice exJsonMachine exJsonVoices (fun _ => some 12)
      (fun r a => [exJsonVoices.text r a])
      (some { enabledRules := ["LongLine".toList], ruleConfiguration := ["LONG_LINE=2".toList],
              reportType := some "json".toList, output := some "out".toList }) =
      .ok (d, .SUCCESS) ∧ d.err = [] ∧
      d.files = [("/w/out".toList, ⟨"{\"version\":\"".toList, false⟩)] ∧
      readJson "{\"version\":\"".toList = none := by
  refine ⟨⟨OStream.fresh, [], [], [("/w/out".toList, ⟨"{\"version\":\"".toList, false⟩)]⟩, ?_, rfl, rfl, ?_⟩
  · decide +kernel
  · decide +kernel

/-- With room for it, the same run leaves a report that can be read. -/
example : ∃ d s, mainDevice exJsonMachine exJsonVoices (fun _ => some 1000)
      (fun r a => [exJsonVoices.text r a])
      (some { enabledRules := ["LongLine".toList], ruleConfiguration := ["LONG_LINE=2".toList],
              reportType := some "json".toList, output := some "out".toList }) =
      .ok (d, .SUCCESS) ∧ d.files = [("/w/out".toList, ⟨s, true⟩)] ∧ (readJson s).isSome = true := by
  refine ⟨⟨OStream.fresh, [], [], [("/w/out".toList, ⟨exJsonVoices.text []
    (fun ch => if ch = .violations then [longLine 4 "a.c".toList 2 1 "abc".toList,
      longLine 4 "b.c".toList 2 2 "abc".toList] else []), true⟩)]⟩, _, ?_, rfl, ?_⟩
  · decide +kernel
  · decide +kernel

end Oclint
