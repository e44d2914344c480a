import Verif.Lemmas.CommandLine
import Verif.Props.Program
import Verif.Props.RunsThrough

/-!
# From the words of the command line to the settings and the exit status
-/

namespace Oclint
open Spec

/-- Words say one thing. -/
theorem C116_reading (ws : List Str) : ∃! said, WordsSay ws said :=
  ⟨readFn ws, (says_iff ws _).2 rfl, fun _ h => (says_iff ws _).1 h⟩

theorem lineMeans_iff (expand : List Str → List Str) (args : List Str) (line : ParsedLine) :
    LineMeans expand args line ↔
      line.fixed = fixedArgs args ∧
      .print ∉ readFn (expand (args.takeWhile fun w => decide (w ≠ chars! "--"))) ∧
      Means (readFn (expand (args.takeWhile fun w => decide (w ≠ chars! "--")))) line := by
  unfold LineMeans
  constructor
  · rintro ⟨before, said, hp, hw, hn, hm⟩
    obtain ⟨rfl, hf⟩ := (parted_iff _ _ _).1 hp
    rw [(says_iff _ _).1 hw] at hn hm
    exact ⟨hf, hn, hm⟩
  · rintro ⟨hf, hn, hm⟩
    exact ⟨_, _, (parted_iff _ _ _).2 ⟨rfl, hf⟩, (says_iff _ _).2 rfl, hn, hm⟩

theorem linePrints_iff (expand : List Str → List Str) (args : List Str) :
    LinePrints expand args ↔
      .print ∈ readFn (expand (args.takeWhile fun w => decide (w ≠ chars! "--"))) := by
  unfold LinePrints
  constructor
  · rintro ⟨before, fixed, said, hp, hw, hn⟩
    obtain ⟨rfl, _⟩ := (parted_iff _ _ _).1 hp
    rwa [(says_iff _ _).1 hw] at hn
  · intro h
    exact ⟨_, _, _, (parted_iff _ _ _).2 ⟨rfl, rfl⟩, (says_iff _ _).2 rfl, h⟩

theorem parseLine_cases (expand : List Str → List Str) (args : List Str) :
    (parseLine expand args = .printed ∧ LinePrints expand args ∧ ∀ line, ¬ LineMeans expand args line) ∨
    (parseLine expand args = .rejected ∧ ¬ LinePrints expand args ∧ ∀ line, ¬ LineMeans expand args line) ∨
    (∃ line, parseLine expand args = .accepted line ∧ ¬ LinePrints expand args ∧
      ∀ line', LineMeans expand args line' ↔ line' = line) := by
  unfold parseLine
  dsimp only
  rw [linePrints_iff]
  have hcond := lineMeans_iff expand args
  generalize fixedArgs args = fixed at hcond ⊢
  rcases words_outcome (expand (args.takeWhile fun w => decide (w ≠ chars! "--"))) fixed with
    ⟨hp, h⟩ | ⟨hp, st, h, hb⟩
  · rw [h]
    exact .inl ⟨rfl, hp, fun line hl => ((hcond _).1 hl).2.1 hp⟩
  · rw [h]
    dsimp only
    rcases hb with ⟨hb, hm⟩ | ⟨hb, hm⟩
    · rw [hb]
      exact .inr (.inl ⟨rfl, hp, fun line hl => hm line ((hcond _).1 hl).2.2⟩)
    · rw [hb]
      refine .inr (.inr ⟨_, rfl, hp, fun line' => ?_⟩)
      rw [hcond]
      constructor
      · rintro ⟨h1, _, h3⟩
        exact means_unique h3 hm h1
      · rintro rfl
        exact ⟨rfl, hp, hm⟩

/-- Which command lines are accepted, and with which settings. -/
theorem C116_accepted (expand : List Str → List Str) (args : List Str) (line : ParsedLine) :
    parseLine expand args = .accepted line ↔ LineMeans expand args line := by
  rcases parseLine_cases expand args with ⟨h, _, hm⟩ | ⟨h, _, hm⟩ | ⟨l, h, _, hm⟩
  · rw [h]; exact ⟨nofun, fun hl => absurd hl (hm line)⟩
  · rw [h]; exact ⟨nofun, fun hl => absurd hl (hm line)⟩
  · rw [h, hm]
    exact ⟨fun e => (LineOutcome.accepted.inj e).symm, fun e => e ▸ rfl⟩

/-- Which command lines print the help text or the version, and do nothing else. -/
theorem C116_printed (expand : List Str → List Str) (args : List Str) :
    parseLine expand args = .printed ↔ LinePrints expand args := by
  rcases parseLine_cases expand args with ⟨h, hp, _⟩ | ⟨h, hp, _⟩ | ⟨l, h, hp, _⟩
  · exact ⟨fun _ => hp, fun _ => h⟩
  · rw [h]; exact ⟨nofun, fun hl => absurd hl hp⟩
  · rw [h]; exact ⟨nofun, fun hl => absurd hl hp⟩

/-- All others are rejected. -/
theorem C116_rejected (expand : List Str → List Str) (args : List Str) :
    parseLine expand args = .rejected ↔
      ¬ LinePrints expand args ∧ ∀ line, ¬ LineMeans expand args line := by
  rcases parseLine_cases expand args with ⟨h, hp, _⟩ | ⟨h, hp, hm⟩ | ⟨l, h, hp, hm⟩
  · rw [h]; exact ⟨nofun, fun hl => absurd hp hl.1⟩
  · exact ⟨fun _ => ⟨hp, hm⟩, fun _ => h⟩
  · rw [h]; exact ⟨nofun, fun hl => absurd ((hm l).2 rfl) (hl.2 l)⟩

/-! ## The exit status -/

theorem ends_code {U σ κ : Type} {m : Machine U σ κ} {cli : CommandLine} {n : Nat}
    (h : ProgramEnds m cli n) : ∃ code : ExitCode, code.toNat = n := by
  cases h with
  | noRules => exact ⟨.RULE_NOT_FOUND, rfl⟩
  | noReporter => exact ⟨.REPORTER_NOT_FOUND, rfl⟩
  | stopped => exact ⟨.ERROR_WHILE_PROCESSING, rfl⟩
  | notOpened => exact ⟨.ERROR_WHILE_REPORTING, rfl⟩
  | notReported => exact ⟨.ERROR_WHILE_REPORTING, rfl⟩
  | errors => exact ⟨.COMPILATION_ERRORS, rfl⟩
  | tooMany => exact ⟨.VIOLATIONS_EXCEED_THRESHOLD, rfl⟩
  | fine => exact ⟨.SUCCESS, rfl⟩

/-- From the words to the exit status. -/
theorem C116_exit_status {U σ κ : Type} [DecidableEq κ] (m : Machine U σ κ) (yaml : Str → RefConfig)
    (expand : List Str → List Str) (databases : ParsedLine → Str → List CompileCommand)
    (args : List Str)
    (hlen : ∀ line, LineMeans expand args line → ∀ s ∈ line.cli.ruleConfiguration, s.length < 2147483648)
    (hno : ∀ p, Consulted m.env p → ¬ HasText m.env.fs yaml p) (status : Nat) :
    commandProgram m yaml expand databases args = .ok status ↔
      CommandEnds (keepingTexts m yaml) expand databases args status := by
  unfold commandProgram CommandEnds
  rcases parseLine_cases expand args with ⟨h, hp, hm⟩ | ⟨h, hp, hm⟩ | ⟨l, h, hp, hm⟩
  · rw [h]
    constructor
    · intro e; cases e; exact .inl ⟨hp, rfl⟩
    · rintro (⟨_, rfl⟩ | ⟨line, hl, _⟩ | ⟨hn, _⟩)
      · rfl
      · exact absurd hl (hm line)
      · exact absurd hp hn
  · rw [h]
    constructor
    · intro e; cases e; exact .inr (.inr ⟨hp, hm, rfl⟩)
    · rintro (⟨hn, _⟩ | ⟨line, hl, _⟩ | ⟨_, _, rfl⟩)
      · exact absurd hn hp
      · exact absurd hl (hm line)
      · rfl
  · rw [h]
    dsimp only
    have hc := C114_exit_code { m with db := databases l, sources := l.sources } yaml l.cli
      (hlen l ((hm l).2 rfl)) hno
    constructor
    · intro e
      obtain ⟨code, h1, h2⟩ := ok_of_bind e
      cases h2
      exact .inr (.inl ⟨l, (hm l).2 rfl, (hc code).1 h1⟩)
    · rintro (⟨hn, _⟩ | ⟨line, hl, he⟩ | ⟨_, hn, _⟩)
      · exact absurd hn hp
      · rw [(hm line).1 hl] at he
        obtain ⟨code, rfl⟩ : ∃ code : ExitCode, code.toNat = status := ends_code he
        rw [(hc code).2 he]
        rfl
      · exact absurd ((hm l).2 rfl) (hn l)

/-! ## Which settings can be given -/

theorem says_sources {ws : List Str} {said : List LineItem} (h : WordsSay ws said) :
    chars! "--" ∉ ws → ∀ s ∈ sourcesSaid said, IsSource s := by
  have skip : ∀ {x : LineItem} {said : List LineItem}, (∀ p, x ≠ .source p) →
      sourcesSaid (x :: said) = sourcesSaid said := by
    intro x said hx
    cases x with
    | source p => exact absurd rfl (hx p)
    | _ => rfl
  induction h with
  | nil => intro _ s hs; cases hs
  | source hw _ ih =>
    intro hn s hs
    rcases List.mem_cons.1 hs with h | h
    · rw [h]; exact hw
    · exact ih (fun hm => hn (List.mem_cons_of_mem _ hm)) s h
  | rest ws => intro hn; exact absurd List.mem_cons_self hn
  | assigned _ _ _ ih => intro hn; rw [skip (fun _ e => by cases e)]; exact ih fun hm => hn (List.mem_cons_of_mem _ hm)
  | switch _ _ _ ih => intro hn; rw [skip (fun _ e => by cases e)]; exact ih fun hm => hn (List.mem_cons_of_mem _ hm)
  | separate _ _ _ ih =>
    intro hn; rw [skip (fun _ e => by cases e)]
    exact ih fun hm => hn (List.mem_cons_of_mem _ (List.mem_cons_of_mem _ hm))
  | joined _ _ _ ih => intro hn; rw [skip (fun _ e => by cases e)]; exact ih fun hm => hn (List.mem_cons_of_mem _ hm)
  | print ws _ _ => intro _ s hs; cases hs
  | noValue _ _ _ ih => intro hn; rw [skip (fun _ e => by cases e)]; exact ih fun hm => hn (List.mem_cons_of_mem _ hm)
  | missing _ _ => intro _ s hs; cases hs
  | unknown _ _ _ ih => intro hn; rw [skip (fun _ e => by cases e)]; exact ih fun hm => hn (List.mem_cons_of_mem _ hm)

theorem once_int {texts : List Str} {v : Option Int} (h : Once texts IntText v) : ∀ z ∈ v, IsInt32 z := by
  intro z hz
  rcases h with ⟨_, rfl⟩ | ⟨t, a, _, hi, rfl⟩
  · cases hz
  · cases hz; exact hi.1

theorem digit_exists : ∀ d, d < 10 → ∃ c, IsDigit c d ∧ (0 < d → c ≠ '0') := by
  intro d hd
  have : ∀ d, d < 10 → digitValue (Char.ofNat (48 + d)) = some d ∧ (0 < d → Char.ofNat (48 + d) ≠ '0') := by
    decide
  exact ⟨_, (digitValue_iff _ _).1 (this d hd).1, (this d hd).2⟩

theorem decimal_exists (n : Nat) : ∃ t, InRadix 10 t n ∧ (0 < n → t.head? ≠ some '0') ∧ (n = 0 → t = chars! "0") := by
  induction n using Nat.strongRecOn with
  | _ n ih =>
    by_cases hn : n < 10
    · by_cases h0 : n = 0
      · subst h0
        exact ⟨_, .one (.inl ⟨by decide, by decide, rfl⟩) (by decide), nofun, fun _ => rfl⟩
      · obtain ⟨c, hc, hz⟩ := digit_exists n hn
        exact ⟨[c], .one hc hn, fun h e => hz h (Option.some.inj e), fun h => absurd h h0⟩
    · obtain ⟨t, ht, hh, _⟩ := ih (n / 10) (by omega)
      obtain ⟨c, hc, _⟩ := digit_exists (n % 10) (Nat.mod_lt _ (by decide))
      refine ⟨t ++ [c], ?_, fun _ => ?_, fun h => by omega⟩
      · have := InRadix.more ht hc (Nat.mod_lt _ (by decide))
        rwa [Nat.mul_comm, Nat.div_add_mod] at this
      · have hne := (inRadix_iff.1 ht).1
        cases t with
        | nil => exact absurd rfl hne
        | cons a t => exact hh (by omega)

theorem int_exists (z : Int) (h : IsInt32 z) : ∃ t, IntText t z := by
  obtain ⟨t, ht, h1, h2⟩ := decimal_exists z.natAbs
  have hn : NumberText t z.natAbs := by
    refine .inr (.inr ⟨?_, ht⟩)
    by_cases h0 : z.natAbs = 0
    · exact .inl (h2 h0)
    · exact .inr (h1 (Nat.pos_of_ne_zero h0))
  rcases Int.natAbs_eq z with e | e
  · exact ⟨t, h, _, .inl ⟨hn, e⟩⟩
  · exact ⟨'-' :: t, h, _, .inr ⟨t, rfl, hn, e⟩⟩

theorem sources_said (sources : List Str) (h : ∀ s ∈ sources, IsSource s) :
    WordsSay sources (sources.map .source) := by
  induction sources with
  | nil => exact .nil
  | cons s ss ih =>
    exact .source (h s List.mem_cons_self) (ih fun t ht => h t (List.mem_cons_of_mem _ ht))

theorem isSource_ne {s : Str} (h : IsSource s) : s ≠ chars! "--" := by
  rintro rfl
  rcases h with h | h
  · exact h rfl
  · cases h

theorem options_said {n : Str} (hn : n ∈ valueNames ++ switchNames) (hh : n.head? ≠ some '-') (texts : List Str)
    {ws : List Str} {said : List LineItem} (h : WordsSay ws said) :
    WordsSay (texts.map (fun t => '-' :: (n ++ '=' :: t)) ++ ws) (texts.map (.option n) ++ said) ∧
      chars! "--" ∉ texts.map (fun t => '-' :: (n ++ '=' :: t)) := by
  have hd : ∀ t, Dashed ('-' :: (n ++ '=' :: t)) (n ++ '=' :: t) := by
    intro t
    refine ⟨by simp, .inl ⟨rfl, ?_⟩⟩
    cases n with
    | nil => nofun
    | cons c cs => exact hh
  constructor
  · induction texts with
    | nil => exact h
    | cons t ts ih => exact .assigned (hd t) hn ih
  · intro hm
    obtain ⟨t, _, e⟩ := List.mem_map.1 hm
    exact (dashed_option (hd t)).2 e

theorem blocks_said (blocks : List (Str × List Str)) (sources : List Str)
    (hb : ∀ b ∈ blocks, b.1 ∈ valueNames ++ switchNames ∧ b.1.head? ≠ some '-')
    (hs : ∀ s ∈ sources, IsSource s) :
    ∃ before said, WordsSay before said ∧ chars! "--" ∉ before ∧ .print ∉ said ∧ .wrong ∉ said ∧
      sourcesSaid said = sources ∧
      ∀ name, given name said = blocks.flatMap fun b => if b.1 = name then b.2 else [] := by
  induction blocks with
  | nil =>
    refine ⟨sources, sources.map .source, sources_said sources hs, ?_, ?_, ?_, ?_, ?_⟩
    · intro h; exact isSource_ne (hs _ h) rfl
    · intro h; obtain ⟨_, _, e⟩ := List.mem_map.1 h; cases e
    · intro h; obtain ⟨_, _, e⟩ := List.mem_map.1 h; cases e
    · unfold sourcesSaid
      rw [List.filterMap_map]
      exact List.filterMap_some
    · intro name
      unfold given
      rw [List.filterMap_map, List.flatMap_nil, List.filterMap_eq_nil_iff]
      intro a _
      rfl
  | cons b bs ih =>
    obtain ⟨before, said, hw, hd, hp, hx, hsrc, hg⟩ := ih fun c hc => hb c (List.mem_cons_of_mem _ hc)
    obtain ⟨h1, h2⟩ := hb b List.mem_cons_self
    obtain ⟨h3, h4⟩ := options_said h1 h2 b.2 hw
    refine ⟨_, _, h3, ?_, ?_, ?_, ?_, ?_⟩
    · intro h
      rcases List.mem_append.1 h with h | h
      · exact h4 h
      · exact hd h
    · intro h
      rcases List.mem_append.1 h with h | h
      · obtain ⟨_, _, e⟩ := List.mem_map.1 h; cases e
      · exact hp h
    · intro h
      rcases List.mem_append.1 h with h | h
      · obtain ⟨_, _, e⟩ := List.mem_map.1 h; cases e
      · exact hx h
    · rw [← hsrc]
      have e : sourcesSaid (b.2.map (.option b.1) ++ said) =
          sourcesSaid (b.2.map (.option b.1)) ++ sourcesSaid said := List.filterMap_append
      rw [e]
      have : sourcesSaid (b.2.map (.option b.1)) = [] := by
        unfold sourcesSaid
        rw [List.filterMap_map, List.filterMap_eq_nil_iff]
        intro a _
        rfl
      rw [this, List.nil_append]
    · intro name
      have e : given name (b.2.map (.option b.1) ++ said) =
          given name (b.2.map (.option b.1)) ++ given name said := List.filterMap_append
      rw [List.flatMap_cons, ← hg, e]
      congr 1
      unfold given
      rw [List.filterMap_map]
      by_cases hn : b.1 = name
      · rw [if_pos hn]
        refine Eq.trans (List.filterMap_congr (g := some) fun t _ => ?_) List.filterMap_some
        exact if_pos hn
      · rw [if_neg hn, List.filterMap_eq_nil_iff]
        intro t _
        exact if_neg hn

/-- Every setting can be given on a command line, if the numbers fit and the sources do not look like
options; and nothing else can. -/
theorem C116_expressible (line : ParsedLine) :
    (∃ args, LineMeans id args line) ↔
      line.sources ≠ [] ∧ (∀ s ∈ line.sources, IsSource s) ∧ (∀ z ∈ line.cli.maxP1, IsInt32 z) ∧
        (∀ z ∈ line.cli.maxP2, IsInt32 z) ∧ (∀ z ∈ line.cli.maxP3, IsInt32 z) := by
  constructor
  · rintro ⟨args, before, said, hp, hw, _, hm⟩
    rw [hm.sources]
    exact ⟨hm.someSource, says_sources hw hp.1, once_int hm.maxP1, once_int hm.maxP2, once_int hm.maxP3⟩
  · rintro ⟨hne, hsrc, h1, h2, h3⟩
    have hz : ∀ v : Option Int, (∀ z ∈ v, IsInt32 z) → ∃ texts, Once texts IntText v := by
      intro v hv
      cases v with
      | none => exact ⟨[], .inl ⟨rfl, rfl⟩⟩
      | some z =>
        obtain ⟨t, ht⟩ := int_exists z (hv z rfl)
        exact ⟨[t], .inr ⟨t, z, rfl, ht, rfl⟩⟩
    have hs : ∀ v : Option Str, ∃ texts, Once texts Eq v := by
      intro v
      cases v with
      | none => exact ⟨[], .inl ⟨rfl, rfl⟩⟩
      | some z => exact ⟨[z], .inr ⟨z, z, rfl, rfl, rfl⟩⟩
    have hb : ∀ v : Option Bool, ∃ texts, Once texts SwitchText v := by
      intro v
      cases v with
      | none => exact ⟨[], .inl ⟨rfl, rfl⟩⟩
      | some b =>
        cases b
        · exact ⟨[chars! "false"], .inr ⟨_, false, rfl, .inr ⟨rfl, by decide⟩, rfl⟩⟩
        · exact ⟨[chars! "true"], .inr ⟨_, true, rfl, .inl ⟨rfl, by decide⟩, rfl⟩⟩
    have hw : ∀ b : Bool, ∃ texts, Switched texts b := by
      intro b
      obtain ⟨t, ht⟩ := hb (some b)
      exact ⟨t, _, ht, rfl⟩
    obtain ⟨t1, k1⟩ := hs line.cli.output
    obtain ⟨t2, k2⟩ := hs line.cli.reportType
    obtain ⟨t3, k3⟩ := hw line.cli.listEnabledRules
    obtain ⟨t4, k4⟩ := hz line.cli.maxP1 h1
    obtain ⟨t5, k5⟩ := hz line.cli.maxP2 h2
    obtain ⟨t6, k6⟩ := hz line.cli.maxP3 h3
    obtain ⟨t7, k7⟩ := hb line.cli.globalAnalysis
    obtain ⟨t8, k8⟩ := hb line.cli.clangChecker
    obtain ⟨t9, k9⟩ := hb line.cli.duplications
    obtain ⟨t10, k10⟩ := hw line.cli.verbose
    obtain ⟨t11, k11⟩ := hs line.buildPath
    let blocks : List (Str × List Str) :=
      [(chars! "o", t1), (chars! "report-type", t2), (chars! "R", line.cli.rulesPath),
       (chars! "rc", line.cli.ruleConfiguration), (chars! "rule", line.cli.enabledRules),
       (chars! "disable-rule", line.cli.disabledRules), (chars! "list-enabled-rules", t3),
       (chars! "max-priority-1", t4), (chars! "max-priority-2", t5), (chars! "max-priority-3", t6),
       (chars! "enable-global-analysis", t7), (chars! "enable-clang-static-analyzer", t8),
       (chars! "allow-duplicated-violations", t9), (chars! "verbose", t10), (chars! "p", t11),
       (chars! "extra-arg", line.argsAfter), (chars! "extra-arg-before", line.argsBefore)]
    obtain ⟨before, said, hr, hd, hp, hx, hsrc', hg⟩ := blocks_said blocks line.sources (by
      intro b hb
      have : ∀ n ∈ blocks.map (·.1), n ∈ valueNames ++ switchNames ∧ n.head? ≠ some '-' := by
        show ∀ n ∈ [chars! "o", chars! "report-type", chars! "R", chars! "rc", chars! "rule",
          chars! "disable-rule", chars! "list-enabled-rules", chars! "max-priority-1",
          chars! "max-priority-2", chars! "max-priority-3", chars! "enable-global-analysis",
          chars! "enable-clang-static-analyzer", chars! "allow-duplicated-violations",
          chars! "verbose", chars! "p", chars! "extra-arg", chars! "extra-arg-before"], _
        decide +kernel
      exact this _ (List.mem_map_of_mem hb)) hsrc
    have hgiven : ∀ {name : Str} {texts : List Str},
        (blocks.flatMap fun b => if b.1 = name then b.2 else []) = texts ++ [] → given name said = texts := by
      intro name texts h
      rw [hg, h, List.append_nil]
    refine ⟨match line.fixed with | none => before | some rest => before ++ chars! "--" :: rest,
      before, said, ⟨hd, ?_⟩, hr, hp, ?_⟩
    · cases line.fixed with
      | none => exact .inl ⟨rfl, rfl⟩
      | some rest => exact .inr ⟨rest, rfl, rfl⟩
    · exact
        { nothingWrong := hx
          someSource := hsrc' ▸ hne
          sources := hsrc'.symm
          output := (hgiven (name := chars! "o") (texts := t1) rfl).symm ▸ k1
          reportType := (hgiven (name := chars! "report-type") (texts := t2) rfl).symm ▸ k2
          rulesPath := (hgiven rfl).symm
          ruleConfiguration := (hgiven rfl).symm
          enabledRules := (hgiven rfl).symm
          disabledRules := (hgiven rfl).symm
          listEnabledRules := (hgiven (name := chars! "list-enabled-rules") (texts := t3) rfl).symm ▸ k3
          maxP1 := (hgiven (name := chars! "max-priority-1") (texts := t4) rfl).symm ▸ k4
          maxP2 := (hgiven (name := chars! "max-priority-2") (texts := t5) rfl).symm ▸ k5
          maxP3 := (hgiven (name := chars! "max-priority-3") (texts := t6) rfl).symm ▸ k6
          globalAnalysis := (hgiven (name := chars! "enable-global-analysis") (texts := t7) rfl).symm ▸ k7
          clangChecker := (hgiven (name := chars! "enable-clang-static-analyzer") (texts := t8) rfl).symm ▸ k8
          duplications := (hgiven (name := chars! "allow-duplicated-violations") (texts := t9) rfl).symm ▸ k9
          verbose := (hgiven (name := chars! "verbose") (texts := t10) rfl).symm ▸ k10
          buildPath := (hgiven (name := chars! "p") (texts := t11) rfl).symm ▸ k11
          argsAfter := (hgiven rfl).symm
          argsBefore := (hgiven rfl).symm }

/-! ## Examples -/

/-- `oclint -R/rules -rc=LONG_LINE=80 --max-priority-2 0x10 -verbose a.m b.m -- -c` -/
example : parseLine id [chars! "-R/rules", chars! "-rc=LONG_LINE=80", chars! "--max-priority-2",
      chars! "0x10", chars! "-verbose", chars! "a.m", chars! "b.m", chars! "--", chars! "-c"] =
    .accepted
      { cli := { rulesPath := [chars! "/rules"], ruleConfiguration := [chars! "LONG_LINE=80"],
                 maxP2 := some 16, verbose := true }
        sources := [chars! "a.m", chars! "b.m"]
        buildPath := none
        argsAfter := []
        argsBefore := []
        fixed := some [chars! "-c"] } := by
  decide +kernel

/-- An option takes the next word even if that looks like an option: then there is no source. -/
example : parseLine id [chars! "-o", chars! "-verbose", chars! "a.m"] =
    .accepted
      { cli := { output := some (chars! "-verbose") }
        sources := [chars! "a.m"]
        buildPath := none
        argsAfter := []
        argsBefore := []
        fixed := none } := by
  decide +kernel

/-- Twice; too large; no source; unknown. -/
example : parseLine id [chars! "-o=x", chars! "-o=y", chars! "a.m"] = .rejected ∧
    parseLine id [chars! "-max-priority-1=2147483648", chars! "a.m"] = .rejected ∧
    parseLine id [chars! "-verbose"] = .rejected ∧
    parseLine id [chars! "-rules", chars! "a.m"] = .rejected := by
  decide +kernel

/-- Help is printed in spite of what is wrong before it. -/
example : parseLine id [chars! "-rules", chars! "-help", chars! "-o=x", chars! "-o=y"] = .printed := by
  decide +kernel

example : commandProgram (exProgram []) exYaml id (fun _ => (exProgram []).db) [chars! "-version"] = .ok 0 ∧
    commandProgram (exProgram []) exYaml id (fun _ => (exProgram []).db) [] = .ok 7 := by
  decide +kernel

/-- Eleven violations of priority 2, of which ten are allowed; then eleven, given in octal. -/
example : commandProgram (exProgram []) exYaml id (fun _ => (exProgram []).db) [chars! "a.c"] = .ok 5 ∧
    commandProgram (exProgram []) exYaml id (fun _ => (exProgram []).db)
      [chars! "a.c", chars! "-max-priority-2=013"] = .ok 0 := by
  decide +kernel

end Oclint
