import Verif.Lemmas.Driver
import Verif.Lemmas.Loader
import Verif.Props.Results

/-!
# Properties C19-C25: compile jobs, diagnostics, plugins, analysis
-/

namespace Oclint
open Spec

variable {U σ : Type}

/-! ## C19 -/

/-- **C19.** The compile jobs are the compile commands of the requested sources, in request order. -/
theorem C19_compile_jobs (absolutePath : Str → Str) (db : Str → List CompileCommand)
    (sources : List Str) :
    constructCompileCommands absolutePath db sources =
      sources.flatMap fun s => (db (absolutePath s)).map fun c => (absolutePath s, c) := by
  have inner : ∀ (cmds : List CompileCommand) (p : Str) (acc : List (Str × CompileCommand)),
      cmds.foldl (fun acc cmd => acc ++ [(p, cmd)]) acc = acc ++ cmds.map fun c => (p, c) := by
    intro cmds p
    induction cmds with
    | nil => simp
    | cons c t ih => intro acc; rw [List.foldl_cons, ih]; simp
  unfold constructCompileCommands
  suffices h : ∀ acc, sources.foldl
      (fun acc sourcePath =>
        let filePath := absolutePath sourcePath
        let cmds := db filePath
        if cmds.isEmpty then acc else cmds.foldl (fun acc cmd => acc ++ [(filePath, cmd)]) acc)
      acc = acc ++ sources.flatMap fun s => (db (absolutePath s)).map fun c => (absolutePath s, c) by
    simpa using h []
  induction sources with
  | nil => simp
  | cons s t ih =>
    intro acc
    rw [List.foldl_cons, ih]
    cases h : db (absolutePath s) with
    | nil => simp [h]
    | cons c cs => simp [inner, h]

/-- Two sources with commands, one without. -/
example :
    constructCompileCommands (fun s => '/' :: s)
      (fun p => if p = "/a.c".toList then [⟨"d".toList, []⟩, ⟨"e".toList, []⟩]
        else if p = "/b.c".toList then [⟨"f".toList, []⟩] else [])
      ["b.c".toList, "x.c".toList, "a.c".toList] =
    [("/b.c".toList, ⟨"f".toList, []⟩), ("/a.c".toList, ⟨"d".toList, []⟩),
      ("/a.c".toList, ⟨"e".toList, []⟩)] := by decide

/-! ## C20 -/

/-- **C20.** Analysing all units together or one after the other gives the same results: one run ends
if and only if the other does, and they collect the same and leave the rules in the same state.  Rules
may keep arbitrary state and may throw. -/
theorem C20_global_equals_per_file (tc : Toolchain U) (exe : Str) (checker : Bool)
    (a : Analyzer U σ) (st st' : DriverState σ) (db : Str → List CompileCommand)
    (sources : List Str) :
    driverRun tc exe true checker a st db sources = .ok st' ↔
      driverRun tc exe false checker a st db sources = .ok st' := by
  rw [driverRun_ok_iff, driverRun_ok_iff]

/-- **C20.** Without the checker pass the checker channel stays as it was. -/
theorem C20_no_checker_no_bugs (tc : Toolchain U) (exe : Str) (g : Bool)
    (a : Analyzer U σ) (st st' : DriverState σ) (db : Str → List CompileCommand)
    (sources : List Str) (h : driverRun tc exe g false a st db sources = .ok st') :
    st'.collector.checkerBugSet = st.collector.checkerBugSet := by
  have hd : ∀ (ds : List Diagnostic) (c : ResultCollector),
      (ds.foldl (handleDiagnostic false) c).checkerBugSet = c.checkerBugSet := by
    intro ds
    induction ds with
    | nil => intro c; rfl
    | cons d t ih =>
      intro c
      rw [List.foldl_cons, ih, handleDiagnostic_eq]
      simp only [Bool.false_eq_true, if_false]
      split
      · rfl
      · split <;> rfl
  have hj : ∀ (st : DriverState σ) (job : Str × CompileCommand) r,
      compileJob tc exe false st job = .ok r →
        r.1.collector.checkerBugSet = st.collector.checkerBugSet := by
    intro st job r h
    unfold compileJob at h
    cases h1 : enterDirectory tc st job.2.directory with
    | throws w => simp [h1] at h
    | ub => simp [h1] at h
    | ok st' =>
      have hc : st'.collector = st.collector := by
        unfold enterDirectory at h1
        split at h1
        · simp at h1
        · split at h1
          · simp at h1
          · simp only [Outcome.ok.injEq] at h1; rw [← h1]
      cases h2 : buildArgv exe (tc.adjust job.2.commandLine job.1) false with
      | throws w => simp [h1, h2] at h
      | ub => simp [h1, h2] at h
      | ok argv =>
        cases h3 : getCC1Arguments (tc.build st'.cwd argv) with
        | throws w => simp [h1, h2, h3] at h
        | ub => simp [h1, h2, h3] at h
        | ok cc1 =>
          simp only [h1, h2, h3, Outcome.bind_ok, Outcome.pure_eq, Outcome.ok.injEq] at h
          rw [← h]
          simp [hd, hc]
  have hcc : ∀ (jobs : List (Str × CompileCommand)) (st : DriverState σ) (us : List U) r,
      constructCompilers tc exe st us jobs = .ok r →
        r.1.collector.checkerBugSet = st.collector.checkerBugSet := by
    intro jobs
    induction jobs with
    | nil => intro st us r h; simp only [constructCompilers, Outcome.ok.injEq] at h; rw [← h]
    | cons job jobs ih =>
      intro st us r h
      simp only [constructCompilers] at h
      cases h1 : compileJob tc exe false st job with
      | throws w => simp [h1] at h
      | ub => simp [h1] at h
      | ok x =>
        rw [h1] at h
        simp only [Outcome.bind_ok] at h
        cases h2 : x.2 with
        | none => rw [h2] at h; rw [ih _ _ _ h, hj _ _ _ h1]
        | some u => rw [h2] at h; rw [ih _ _ _ h, hj _ _ _ h1]
  have ha : ∀ (us : List U) (st st' : DriverState σ), analyze a us st = .ok st' →
      st'.collector.checkerBugSet = st.collector.checkerBugSet := by
    intro us
    induction us with
    | nil => intro st st' h; cases h; rfl
    | cons u t ih =>
      intro st st' h
      rw [analyze_cons, bind_eq_ok] at h
      obtain ⟨r, _, h2⟩ := h
      rw [ih _ _ h2]
      rfl
  obtain ⟨x, h1, h2⟩ := driverRun_ok_iff.1 h
  rw [invoke, bind_eq_ok] at h1
  obtain ⟨y, h3, h4⟩ := h1
  simp only [Bool.false_eq_true, if_false, Outcome.pure_eq, Outcome.ok.injEq] at h2
  rw [← h2, ha _ _ _ h4, hcc _ _ _ _ h3]

/-! ## C21 -/

/-- **C21.** In the normal pass warnings go to the warnings, errors and fatal errors to the errors,
in order, and nothing else changes. -/
theorem C21_normal_pass (c : ResultCollector) (ds : List Diagnostic) :
    ds.foldl (handleDiagnostic false) c =
      { collection := c.collection
        errorSet := c.errorSet ++
          (ds.filter fun d => decide (d.level = .error ∨ d.level = .fatal)).map diagnosticEntry
        warningSet := c.warningSet ++
          (ds.filter fun d => decide (d.level = .warning)).map diagnosticEntry
        checkerBugSet := c.checkerBugSet } := by
  induction ds generalizing c with
  | nil => simp
  | cons d t ih =>
    rw [List.foldl_cons, ih, handleDiagnostic_eq]
    cases h : d.level <;>
      simp [h, ResultCollector.addWarning, ResultCollector.addError, ViolationSet.addViolation]

/-- **C21.** In the checker pass every diagnostic becomes a checker bug, in order. -/
theorem C21_checker_pass (c : ResultCollector) (ds : List Diagnostic) :
    ds.foldl (handleDiagnostic true) c =
      { c with checkerBugSet := c.checkerBugSet ++ ds.map diagnosticEntry } := by
  induction ds generalizing c with
  | nil => simp
  | cons d t ih =>
    rw [List.foldl_cons, ih, handleDiagnostic_eq]
    simp [ResultCollector.addCheckerBug, ViolationSet.addViolation]

/-- A note, a warning inside a macro and a fatal error. -/
example :
    let note : Diagnostic := ⟨.note, true, "a.c".toList, false, [], 1, 2, "n".toList⟩
    let warn : Diagnostic := ⟨.warning, true, [], true, "m.c".toList, 3, 4, "w".toList⟩
    let fatal : Diagnostic := ⟨.fatal, false, "a.c".toList, false, [], 5, 6, "f".toList⟩
    [note, warn, fatal].foldl (handleDiagnostic false) ResultCollector.empty =
      { collection := []
        errorSet := [⟨none, [], 0, 0, 0, 0, "f".toList⟩]
        warningSet := [⟨none, "m.c".toList, 3, 4, 0, 0, "w".toList⟩]
        checkerBugSet := [] } := by decide

/-! ## C22 -/

/-- **C22.** Normal pass: the tool path replaces the first argument, `-gmodules` disappears,
`-D__OCLINT__` is added at the end. -/
theorem C22_normal_command_line (exe first : Str) (rest : List Str)
    (hexe : exe ≠ "-gmodules".toList) :
    buildArgv exe (first :: rest) false =
      .ok (exe :: (rest.filter fun a => decide (a ≠ "-gmodules".toList)) ++
        ["-D__OCLINT__".toList]) := by
  have h := argvLoop_spec (exe :: rest) (exe :: rest).length (Nat.le_refl _) (exe :: rest).length 0
    [] (by simp)
  simp only [buildArgv, Bool.false_eq_true, if_false, h, Outcome.bind_ok, Outcome.pure_eq,
    List.drop_zero, List.take_length, List.nil_append]
  rw [List.filter_cons, if_pos (decide_eq_true hexe)]

/-- **C22.** Checker pass: `--analyze` comes second and the last argument of the command is dropped,
whatever it is. -/
theorem C22_checker_command_line (exe first last : Str) (middle : List Str) :
    buildArgv exe (first :: (middle ++ [last])) true =
      .ok (exe :: "--analyze".toList :: (middle.filter fun a => decide (a ≠ "-gmodules".toList)) ++
        ["-D__OCLINT__".toList]) := by
  have h := argvLoop_spec (exe :: (middle ++ [last])) ((exe :: (middle ++ [last])).length - 1)
    (by omega) middle.length 1 [exe, "--analyze".toList] (by simp; omega)
  have e : ((exe :: (middle ++ [last])).drop 1).take middle.length = middle := by simp
  simp only [buildArgv, if_true, h, Outcome.bind_ok, Outcome.pure_eq, e]
  rfl

/-- **C22.** An empty command line in either pass, and one consisting only of the compiler in the
checker pass, read or write out of bounds. -/
theorem C22_out_of_bounds (exe first : Str) :
    (∀ checker, buildArgv exe [] checker = .ub) ∧ buildArgv exe [first] true = .ub := by
  refine ⟨fun _ => rfl, ?_⟩
  have := argvLoop_ub [exe] 0 0 1 [exe, "--analyze".toList] rfl (by omega)
  simp only [buildArgv, if_true, List.length_singleton, Nat.sub_self, this, Outcome.bind_ub]

/-- **C22.** The command line never contains `-gmodules` and always ends with `-D__OCLINT__`. -/
theorem C22_flags (exe : Str) (hexe : exe ≠ "-gmodules".toList) (cmd : List Str) (checker : Bool)
    (argv : List Str) (h : buildArgv exe cmd checker = .ok argv) :
    "-gmodules".toList ∉ argv ∧ argv.head? = some exe ∧
      argv.getLast? = some "-D__OCLINT__".toList := by
  have h1 : "-gmodules".toList ≠ "-D__OCLINT__".toList := by decide
  have h2 : "-gmodules".toList ≠ "--analyze".toList := by decide
  have hfilter : ∀ l : List Str,
      "-gmodules".toList ∉ l.filter fun a => decide (a ≠ "-gmodules".toList) := by
    intro l; generalize "-gmodules".toList = g; simp
  cases cmd with
  | nil => simp [buildArgv] at h
  | cons first rest =>
    cases checker with
    | false =>
      rw [C22_normal_command_line _ _ _ hexe] at h
      simp only [Outcome.ok.injEq] at h
      subst h
      refine ⟨?_, rfl, by rw [List.getLast?_append]; rfl⟩
      intro hm
      rcases List.mem_append.1 hm with hm | hm
      · rcases List.mem_cons.1 hm with hm | hm
        · exact hexe hm.symm
        · exact hfilter _ hm
      · exact h1 (List.mem_singleton.1 hm)
    | true =>
      rcases List.eq_nil_or_concat rest with rfl | ⟨middle, last, rfl⟩
      · rw [(C22_out_of_bounds exe first).2] at h; simp at h
      · rw [List.concat_eq_append, C22_checker_command_line] at h
        simp only [Outcome.ok.injEq] at h
        subst h
        refine ⟨?_, rfl, by rw [List.getLast?_append]; rfl⟩
        intro hm
        rcases List.mem_append.1 hm with hm | hm
        · rcases List.mem_cons.1 hm with hm | hm
          · exact hexe hm.symm
          · rcases List.mem_cons.1 hm with hm | hm
            · exact h2 hm
            · exact hfilter _ hm
        · exact h1 (List.mem_singleton.1 hm)

/-- **C22.** The front end receives the arguments of the first job; this succeeds exactly when there
is one job, or several of an offloading compilation, and the first is a clang command. -/
theorem C22_front_end_job (c : Compilation) (args : List Str) :
    getCC1Arguments c = .ok args ↔
      ∃ job others, c.jobs = job :: others ∧ (others = [] ∨ true ∈ c.offloadActions) ∧
        job.isCommand = true ∧ job.creator = "clang".toList ∧ job.arguments = args := by
  obtain ⟨jobs, offs, text⟩ := c
  unfold getCC1Arguments
  generalize "clang".toList = k
  generalize "expected a command for clang compiler".toList = k1
  generalize "compilation job does not contain correct command:\n".toList ++ text ++ "\n".toList = k2
  generalize "compilation contains multiple jobs:\n".toList ++ text ++ "\n".toList = k3
  generalize "compilation contains no job:\n".toList ++ text ++ "\n".toList = k4
  cases jobs with
  | nil => simp
  | cons job others =>
    have hany : offs.any id = true ↔ true ∈ offs := by simp
    cases others with
    | nil =>
      by_cases h1 : job.isCommand = true <;> by_cases h2 : job.creator = k <;> simp [h1, h2]
    | cons j2 rest =>
      by_cases h0 : true ∈ offs
      · have h0' := hany.2 h0
        by_cases h1 : job.isCommand = true <;> by_cases h2 : job.creator = k <;>
          simp [h0', h0, h1, h2]
      · have h0' : offs.any id = false := Bool.eq_false_iff.2 fun h => h0 (hany.1 h)
        simp [h0', h0]

/-- The last argument, here the source file, is lost in the checker pass. -/
example :
    buildArgv "/bin/oclint".toList
      ["cc".toList, "-c".toList, "-gmodules".toList, "a.c".toList] true =
    .ok ["/bin/oclint".toList, "--analyze".toList, "-c".toList, "-D__OCLINT__".toList] :=
  C22_checker_command_line _ _ "a.c".toList ["-c".toList, "-gmodules".toList]

/-! ## C23 -/

/-- **C23.** For a non-empty pattern the replacement ends and yields exactly the text with the
occurrences found from left to right, without overlap, replaced. -/
theorem C23_replacement (orig old new : Str) (hold : old ≠ []) :
    ∃ t, stringReplace orig old new = some t ∧ Replaced old new orig t ∧
      ∀ t', Replaced old new orig t' → t' = t := by
  obtain ⟨t', ht, hr⟩ := replaceIter_spec new hold (orig.length + 1) [] orig (by omega)
  refine ⟨t', (stringReplace_spec hold).2 hr, hr, fun t'' h => replaced_unique hold h hr⟩

/-- **C23.** The loop ends exactly for non-empty patterns. -/
theorem C23_termination (orig old new : Str) :
    (∃ n, (replaceIter old new n (orig, findFrom orig old 0)).2 = none) ↔ old ≠ [] := by
  constructor
  · rintro ⟨n, h⟩ rfl
    have inv : ∀ n, ∃ p, (replaceIter [] new n (orig, findFrom orig [] 0)).2 = some p ∧
        p ≤ (replaceIter [] new n (orig, findFrom orig [] 0)).1.length := by
      intro n
      induction n with
      | zero =>
        refine ⟨0, ?_, by simp [replaceIter]⟩
        simp only [replaceIter]
        rw [findFrom_eq_some]
        simp
      | succ n ih =>
        obtain ⟨p, h1, h2⟩ := ih
        rw [replaceIter_succ']
        generalize replaceIter [] new n (orig, findFrom orig [] 0) = st at h1 h2
        obtain ⟨s, q⟩ := st
        simp only at h1 h2
        subst h1
        simp only [replaceStep]
        refine ⟨p + new.length, ?_, by simp; omega⟩
        rw [findFrom_eq_some]
        refine ⟨Nat.le_refl _, by simp; omega, by simp, fun j h3 h4 => by omega⟩
    obtain ⟨p, hp, _⟩ := inv n
    rw [hp] at h
    simp at h
  · intro hold
    obtain ⟨t, ht, _⟩ := replaceIter_spec new hold (orig.length + 1) [] orig (by omega)
    simp only [List.nil_append, List.length_nil] at ht
    exact ⟨_, by rw [ht]⟩

theorem replaced_no_new_escape {s t : Str} (h : Replaced ['\\', ' '] [' '] s t)
    (hno : ¬ ['\\', '\\', ' '] <:+: s) :
    ¬ ['\\', ' '] <:+: t ∧ ([' '] <+: t → [' '] <+: s ∨ ['\\', ' '] <+: s) := by
  induction h with
  | done => simp
  | hit s t _ ih =>
    have hs : ¬ ['\\', '\\', ' '] <:+: s := fun hi => hno (hi.trans (List.suffix_append _ _).isInfix)
    refine ⟨?_, fun _ => Or.inr (List.prefix_append _ _)⟩
    intro hi
    simp only [List.cons_append, List.nil_append] at hi
    rcases List.infix_cons_iff.1 hi with hp | hi
    · simp [List.cons_prefix_cons] at hp
    · exact (ih hs).1 hi
  | keep c s t hn _ ih =>
    have hs : ¬ ['\\', '\\', ' '] <:+: s := fun hi => hno (hi.trans (List.suffix_cons _ _).isInfix)
    refine ⟨?_, ?_⟩
    · intro hi
      rcases List.infix_cons_iff.1 hi with hp | hi
      · rw [List.cons_prefix_cons] at hp
        obtain ⟨rfl, hp⟩ := hp
        rcases (ih hs).2 hp with h | h
        · exact hn (by rw [List.cons_prefix_cons]; exact ⟨rfl, h⟩)
        · refine hno (List.IsPrefix.isInfix ?_)
          rw [List.cons_prefix_cons]; exact ⟨rfl, h⟩
      · exact (ih hs).1 hi
    · intro hp
      rw [List.cons_prefix_cons] at hp
      obtain ⟨rfl, _⟩ := hp
      left
      simp [List.cons_prefix_cons]

/-- **C23.** An escaped blank can remain in a directory name only if the name contained two
backslashes before a blank. -/
theorem C23_no_escape_left (dir t : Str)
    (h : stringReplace dir "\\ ".toList " ".toList = some t)
    (hno : ¬ "\\\\ ".toList <:+: dir) : ¬ "\\ ".toList <:+: t :=
  (replaced_no_new_escape ((stringReplace_spec (by decide)).1 h) hno).1

/-- Two blanks unescaped; and the remaining case. -/
example : stringReplace "/My\\ Dir/a\\ b".toList "\\ ".toList " ".toList =
    some "/My Dir/a b".toList := by decide +kernel
example : stringReplace "a\\\\ b".toList "\\ ".toList " ".toList = some "a\\ b".toList := by
  decide +kernel
example : stringReplace "aaaa".toList "aa".toList "a".toList = some "aa".toList := by
  decide +kernel

/-! ## C24 -/

/-- **C24.** If every plugin of the rule directories opens, loading succeeds and registers the rules
of every plugin once, in the order the plugins are first met. -/
theorem C24_rules_loaded (ls : Listing) (lib : Str → Option (List RuleId)) (dirs : List Str)
    (h : ∀ p ∈ dirs.flatMap (pluginPaths ls), (lib p).isSome) :
    ∃ st, consumeArgRulesPath ls lib ⟨[], none⟩ dirs = .ok st ∧
      registered st.registry =
        (dirs.flatMap (pluginPaths ls)).eraseDups.flatMap fun p => (lib p).getD [] := by
  rw [consumeArgRulesPath_eq]
  obtain ⟨st, h1, h2⟩ := openAll_ok _ ⟨[], none⟩ h
  exact ⟨st, h1, by simpa [registered] using h2⟩

/-- **C24.** Otherwise loading fails at the first plugin that does not open and names it. -/
theorem C24_first_broken_rule (ls : Listing) (lib : Str → Option (List RuleId)) (dirs : List Str)
    (st : LoaderState) (pre post : List Str) (p : Str)
    (hsplit : dirs.flatMap (pluginPaths ls) = pre ++ p :: post)
    (hpre : ∀ q ∈ pre, (lib q).isSome) (hp : lib p = none) :
    consumeArgRulesPath ls lib st dirs = .throws ("cannot open dynamic library: ".toList ++ p) := by
  rw [consumeArgRulesPath_eq]
  exact openAll_throws _ _ pre p post hsplit hpre hp

/-- **C24.** The selected reporter is the first plugin with the requested name, provided all plugins
before it are sound; later plugins do not matter. -/
theorem C24_reporter_selected (ls : Listing) (lib : Str → Option ReporterLibrary)
    (reportType dir path : Str) :
    loadReporter ls lib reportType dir = .ok path ↔
      ∃ pre post, pluginPaths ls dir = pre ++ path :: post ∧
        (∀ q ∈ pre, ∃ n, lib q = some (some n) ∧ n ≠ reportType) ∧
        lib path = some (some reportType) := by
  rw [loadReporter_eq]
  constructor
  · intro h
    rcases other_or_decisive lib reportType (pluginPaths ls dir) with ho | ⟨pre, p, post, h1, h2, h3⟩
    · have := searchReporter_prefix _ [] ho
      rw [List.append_nil] at this
      rw [this] at h
      simp [searchReporter] at h
    · rw [h1, searchReporter_prefix pre _ h2, searchReporter] at h
      cases hl : lib p with
      | none => simp [hl] at h
      | some x =>
        cases x with
        | none => simp [hl] at h
        | some n =>
          have hn : n = reportType := by
            by_contra hne; exact h3 ⟨n, hl, hne⟩
          subst hn
          simp [hl] at h
          subst h
          exact ⟨pre, post, h1, h2, hl⟩
  · rintro ⟨pre, post, h1, h2, h3⟩
    rw [h1, searchReporter_prefix pre _ h2]
    simp [searchReporter, h3]

/-- **C24.** Selecting a reporter fails with an error exactly when all plugins are sound but none
has the name, or a plugin that does not open comes before any match. -/
theorem C24_reporter_error (ls : Listing) (lib : Str → Option ReporterLibrary)
    (reportType dir : Str) :
    (∃ w, loadReporter ls lib reportType dir = .throws w) ↔
      (∀ q ∈ pluginPaths ls dir, ∃ n, lib q = some (some n) ∧ n ≠ reportType) ∨
      ∃ pre p post, pluginPaths ls dir = pre ++ p :: post ∧
        (∀ q ∈ pre, ∃ n, lib q = some (some n) ∧ n ≠ reportType) ∧ lib p = none := by
  rw [loadReporter_eq]
  constructor
  · rintro ⟨w, h⟩
    rcases other_or_decisive lib reportType (pluginPaths ls dir) with ho | ⟨pre, p, post, h1, h2, h3⟩
    · exact Or.inl ho
    · rw [h1, searchReporter_prefix pre _ h2, searchReporter] at h
      cases hl : lib p with
      | none => exact Or.inr ⟨pre, p, post, h1, h2, hl⟩
      | some x =>
        cases x with
        | none => simp [hl] at h
        | some n =>
          have hn : n = reportType := by
            by_contra hne; exact h3 ⟨n, hl, hne⟩
          subst hn
          simp [hl] at h
  · rintro (ho | ⟨pre, p, post, h1, h2, h3⟩)
    · have := searchReporter_prefix _ [] ho
      rw [List.append_nil] at this
      rw [this]
      exact ⟨_, rfl⟩
    · rw [h1, searchReporter_prefix pre _ h2]
      exact ⟨_, by simp only [searchReporter, h3]; rfl⟩

/-- A directory given twice registers its rules once; the hidden entry is ignored. -/
example :
    consumeArgRulesPath (fun d => if d = "r".toList then some [".".toList, "b".toList, "a".toList]
        else none)
      (fun p => if p = "r/a".toList then some [1] else if p = "r/b".toList then some [2, 3] else none)
      ⟨[], none⟩ ["r".toList, "missing".toList, "r".toList] =
    .ok ⟨["r/b".toList, "r/a".toList], some [2, 3, 1]⟩ := by decide

/-- The reporter after the match is broken, which does not matter. -/
example :
    loadReporter (fun _ => some ["x".toList, "y".toList, "z".toList])
      (fun p => if p = "d/x".toList then some (some "text".toList)
        else if p = "d/y".toList then some (some "json".toList) else none)
      "json".toList "d".toList = .ok "d/y".toList := by decide

/-! ## C25 -/

/-- **C25.** With rules whose reports depend only on the unit, analysis appends one set per unit:
the reports of the running rules in order, each attributed to its rule; reports without a file path
are dropped; the other stores are untouched. -/
theorem C25_one_set_per_unit (a : Analyzer U σ) (reports : RuleId → U → List Report)
    (hpure : ∀ r ∈ a.filteredRules, ∀ s u, ∃ s', a.takeoff r s u = .ok (s', reports r u))
    (units : List U) (st : DriverState σ) :
    ∃ st', analyze a units st = .ok st' ∧ st'.cwd = st.cwd ∧ st'.collector =
      { st.collector with
        collection := st.collector.collection ++ units.map fun u =>
          a.filteredRules.flatMap fun r =>
            ((reports r u).filter fun x => decide (x.path ≠ [])).map (reportEntry r) } := by
  have key : ∀ (rules : List RuleId) (u : U) (s : σ) (set : ViolationSet),
      (∀ r ∈ rules, ∀ s u, ∃ s', a.takeoff r s u = .ok (s', reports r u)) →
      ∃ s', takeoffAll a u rules s set = .ok (s',
      set ++ rules.flatMap fun r =>
        ((reports r u).filter fun x => decide (x.path ≠ [])).map (reportEntry r)) := by
    intro rules
    induction rules with
    | nil => intro u s set _; exact ⟨s, by simp [takeoffAll]⟩
    | cons r t ih =>
      intro u s set hp
      obtain ⟨s1, h1⟩ := hp r (by simp) s u
      obtain ⟨s2, h2⟩ := ih u s1 _ (fun r hr => hp r (by simp [hr]))
      refine ⟨s2, ?_⟩
      rw [takeoffAll, h1, Outcome.bind_ok, h2, carrier_fold, List.flatMap_cons, List.append_assoc]
  induction units generalizing st with
  | nil => exact ⟨st, by simp [analyze]⟩
  | cons u t ih =>
    obtain ⟨s1, hk⟩ := key a.filteredRules u st.rules [] hpure
    obtain ⟨st', h1, h2, h3⟩ := ih (absorb st (s1, _))
    refine ⟨st', ?_, h2, ?_⟩
    · rw [analyze_cons, hk]; exact h1
    · rw [h3]
      simp only [absorb, ResultCollector.add, List.nil_append, List.append_assoc,
        List.map_cons, List.singleton_append]

/-- **C25.** Whatever state the rules keep, exactly one set is appended per unit. -/
theorem C25_set_count (a : Analyzer U σ) (units : List U) (st st' : DriverState σ)
    (h : analyze a units st = .ok st') :
    st'.collector.collection.length = st.collector.collection.length + units.length := by
  induction units generalizing st with
  | nil => cases h; rfl
  | cons u t ih =>
    rw [analyze_cons, bind_eq_ok] at h
    obtain ⟨r, _, h2⟩ := h
    rw [ih _ h2]
    simp [absorb, ResultCollector.add]
    omega

/-- Two units, two rules; the report without a path is dropped. -/
example :
    (do let st ← analyze (U := Nat) (σ := Unit)
          { filteredRules := [7, 8]
            takeoff := fun r s u =>
              .ok (s, if r = 7 then [⟨"a.c".toList, u, 1, u, 2, "m".toList⟩, ⟨[], 0, 0, 0, 0, []⟩]
                else []) }
          [5, 6] ⟨[], ResultCollector.empty, ()⟩
        pure st.collector.collection) =
    Outcome.ok [[⟨some 7, "a.c".toList, 5, 1, 5, 2, "m".toList⟩],
      [⟨some 7, "a.c".toList, 6, 1, 6, 2, "m".toList⟩]] := by decide

end Oclint
