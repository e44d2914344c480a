import Verif.Spec.Run
import Verif.Props.Driver

/-!
# Lemmas about a whole run of the driver
-/

namespace Oclint
open Spec

variable {U σ : Type}

/-! ## One job -/

theorem buildArgv_iff (exe : Str) (cmd : List Str) (checker : Bool) (argv : List Str) :
    buildArgv exe cmd checker = .ok argv ↔ ClangCall exe checker cmd argv := by
  have hn : ∀ first rest, buildArgv exe (first :: rest) false =
      .ok (((exe :: rest).filter fun a => decide (a ≠ "-gmodules".toList)) ++
        ["-D__OCLINT__".toList]) := by
    intro first rest
    have h := argvLoop_spec (exe :: rest) (exe :: rest).length (Nat.le_refl _) (exe :: rest).length 0
      [] (by simp)
    simp only [buildArgv, Bool.false_eq_true, if_false, h, Outcome.bind_ok, Outcome.pure_eq,
      List.drop_zero, List.take_length, List.nil_append]
  constructor
  · intro h
    cases cmd with
    | nil => rw [(C22_out_of_bounds exe []).1] at h; cases h
    | cons first rest =>
      cases checker with
      | false => rw [hn] at h; cases h; exact .normal first rest
      | true =>
        rcases List.eq_nil_or_concat rest with rfl | ⟨middle, last, rfl⟩
        · rw [(C22_out_of_bounds exe first).2] at h; cases h
        · rw [List.concat_eq_append, C22_checker_command_line] at h
          cases h
          rw [List.concat_eq_append]
          exact .checker first last middle
  · intro h
    cases h with
    | normal first rest => exact hn first rest
    | checker first last middle => exact C22_checker_command_line exe first last middle

theorem buildArgv_cases (exe : Str) (cmd : List Str) (checker : Bool) (w : Str) :
    buildArgv exe cmd checker ≠ .throws w := by
  cases cmd with
  | nil => intro h; rw [(C22_out_of_bounds exe []).1] at h; cases h
  | cons first rest =>
    cases checker with
    | false => intro h; rw [(buildArgv_iff _ _ _ _).2 (.normal first rest)] at h; cases h
    | true =>
      intro h
      rcases List.eq_nil_or_concat rest with rfl | ⟨middle, last, rfl⟩
      · rw [(C22_out_of_bounds exe first).2] at h; cases h
      · rw [List.concat_eq_append, C22_checker_command_line] at h
        cases h

theorem clangCall_unique {exe : Str} {checker : Bool} {cmd a b : List Str}
    (ha : ClangCall exe checker cmd a) (hb : ClangCall exe checker cmd b) : a = b := by
  have h1 := (buildArgv_iff _ _ _ _).2 ha
  have h2 := (buildArgv_iff _ _ _ _).2 hb
  rw [h1] at h2
  cases h2
  rfl

theorem getCC1_throws (c : Compilation) (w : Str) :
    getCC1Arguments c = .throws w ↔ NoFrontEnd c w := by
  obtain ⟨jobs, offs, text⟩ := c
  have hany : offs.any id = true ↔ true ∈ offs := by simp
  constructor
  · intro h
    cases jobs with
    | nil =>
      unfold getCC1Arguments at h
      simp only [List.length_nil, if_true] at h
      cases h
      exact .empty rfl
    | cons job others =>
      by_cases hm : (job :: others).length > 1 ∧
          (if (job :: others).length > 1 then offs.any id else false) = false
      · unfold getCC1Arguments at h
        simp only [if_neg (show ¬ (job :: others).length = 0 by simp)] at h
        rw [if_pos hm] at h
        cases h
        refine .many hm.1 ?_
        have h2 := hm.2
        rw [if_pos hm.1] at h2
        intro ht
        rw [hany.2 ht] at h2
        cases h2
      · have ho : others = [] ∨ true ∈ offs := by
          by_cases hl : (job :: others).length > 1
          · right
            rw [if_pos hl] at hm
            by_contra hc
            exact hm ⟨hl, Bool.eq_false_iff.2 fun h => hc (hany.1 h)⟩
          · left
            simp only [List.length_cons] at hl
            exact List.eq_nil_of_length_eq_zero (by omega)
        unfold getCC1Arguments at h
        simp only [if_neg (show ¬ (job :: others).length = 0 by simp)] at h
        rw [if_neg hm] at h
        by_cases hc : (!job.isCommand) = true
        · rw [if_pos hc] at h
          cases h
          exact .other job others rfl ho (by simpa using hc)
        · rw [if_neg hc] at h
          by_cases hk : job.creator ≠ "clang".toList
          · rw [if_pos hk] at h
            cases h
            exact .foreign job others rfl ho (by simpa using hc) hk
          · rw [if_neg hk] at h
            cases h
  · intro h
    cases h with
    | empty h => simp only at h; subst h; rfl
    | many h1 h2 =>
      simp only at h1 h2
      have h1 : jobs.length > 1 := h1
      have h3 : (if jobs.length > 1 then offs.any id else false) = false := by
        rw [if_pos h1]
        exact Bool.eq_false_iff.2 fun h => h2 (hany.1 h)
      unfold getCC1Arguments
      simp only [if_neg (show ¬ jobs.length = 0 by omega)]
      rw [if_pos ⟨h1, h3⟩]
    | other job others h1 h2 h3 =>
      simp only at h1 h2
      subst h1
      unfold getCC1Arguments
      simp only [if_neg (show ¬ (job :: others).length = 0 by simp)]
      rw [if_neg, h3]
      · rfl
      · rintro ⟨h4, h5⟩
        rw [if_pos h4] at h5
        rcases h2 with rfl | h2
        · simp at h4
        · rw [hany.2 h2] at h5; cases h5
    | foreign job others h1 h2 h3 h4 =>
      simp only at h1 h2
      subst h1
      unfold getCC1Arguments
      simp only [if_neg (show ¬ (job :: others).length = 0 by simp)]
      rw [if_neg, h3]
      · rw [if_neg (by simp), if_pos h4]
      · rintro ⟨h4, h5⟩
        rw [if_pos h4] at h5
        rcases h2 with rfl | h2
        · simp at h4
        · rw [hany.2 h2] at h5; cases h5

theorem jobDirectory_iff (job : Str × CompileCommand) (dir : Str) :
    stringReplace job.2.directory "\\ ".toList " ".toList = some dir ↔ JobDirectory job dir :=
  stringReplace_spec (by decide)

/-- The state after a job. -/
def afterJob (checker : Bool) (st : DriverState σ) (r : CompileResult U) (cwd : Str) : DriverState σ :=
  ⟨cwd, r.diagnostics.foldl (handleDiagnostic checker) st.collector, st.rules⟩

theorem directory_text (dir : Str) :
    "Cannot change dictionary into \"".toList ++ dir ++ "\", ".toList ++
      "please make sure the directory exists and you have permission to access!".toList =
    "Cannot change dictionary into \"".toList ++ dir ++
      "\", please make sure the directory exists and you have permission to access!".toList := by
  have h : "\", please make sure the directory exists and you have permission to access!".toList =
      "\", ".toList ++
        "please make sure the directory exists and you have permission to access!".toList := by
    decide +kernel
  rw [h, List.append_assoc _ _ ("please make sure the directory exists and you have permission to access!".toList)]

theorem compileJob_of_compiles {tc : Toolchain U} {exe : Str} {checker : Bool} {cwd cwd' : Str}
    {job : Str × CompileCommand} {r : CompileResult U}
    (h : Compiles tc exe checker cwd job r cwd') (c : ResultCollector) (s : σ) :
    compileJob tc exe checker ⟨cwd, c, s⟩ job =
      .ok (afterJob checker ⟨cwd, c, s⟩ r cwd', unitOf r) := by
  obtain ⟨dir, _, argv, cc1, h1, h2, h3, h4⟩ := h
  unfold compileJob enterDirectory
  simp only [(jobDirectory_iff job dir).2 h1, h2, Outcome.bind_ok, (buildArgv_iff _ _ _ _).2 h3,
    (C22_front_end_job _ _).2 h4, Outcome.pure_eq, afterJob, unitOf]

theorem compileJob_of_stops {tc : Toolchain U} {exe : Str} {checker : Bool} {cwd w : Str}
    {job : Str × CompileCommand} (h : Stops tc exe checker cwd job w) (c : ResultCollector) (s : σ) :
    compileJob tc exe checker ⟨cwd, c, s⟩ job = .throws w := by
  cases h with
  | directory dir h1 h2 =>
    unfold compileJob enterDirectory
    simp only [(jobDirectory_iff job dir).2 h1, h2, Outcome.bind_throws, directory_text]
  | frontEnd dir cwd' w argv h1 h2 h3 h4 =>
    unfold compileJob enterDirectory
    simp only [(jobDirectory_iff job dir).2 h1, h2, Outcome.bind_ok, (buildArgv_iff _ _ _ _).2 h3,
      (getCC1_throws _ _).2 h4, Outcome.bind_throws]

/-- A job compiles, stops the run or is undefined. -/
theorem job_cases (tc : Toolchain U) (exe : Str) (checker : Bool) (cwd : Str)
    (job : Str × CompileCommand) :
    (∃ r cwd', Compiles tc exe checker cwd job r cwd') ∨
      (∃ w, Stops tc exe checker cwd job w) ∨
      ∀ (c : ResultCollector) (s : σ), compileJob tc exe checker ⟨cwd, c, s⟩ job = .ub := by
  obtain ⟨dir, hdir⟩ : ∃ dir, JobDirectory job dir := by
    obtain ⟨t, -, ht⟩ := replaceIter_spec (old := "\\ ".toList) " ".toList (by decide)
      (job.2.directory.length + 1) [] job.2.directory (by omega)
    exact ⟨t, ht⟩
  cases hc : tc.chdir cwd dir with
  | none => exact .inr (.inl ⟨_, .directory dir hdir hc⟩)
  | some cwd' =>
    have he : ∀ (c : ResultCollector) (s : σ), enterDirectory tc ⟨cwd, c, s⟩ job.2.directory =
        .ok ⟨cwd', c, s⟩ := by
      intro c s
      unfold enterDirectory
      simp only [(jobDirectory_iff job dir).2 hdir, hc]
    cases hb : buildArgv exe (tc.adjust job.2.commandLine job.1) checker with
    | throws w => exact absurd hb (buildArgv_cases _ _ _ _)
    | ub =>
      right; right
      intro c s
      unfold compileJob
      simp only [he, Outcome.bind_ok, hb, Outcome.bind_ub]
    | ok argv =>
      have hb' := (buildArgv_iff _ _ _ _).1 hb
      cases hg : getCC1Arguments (tc.build cwd' argv) with
      | throws w => exact .inr (.inl ⟨w, .frontEnd dir cwd' w argv hdir hc hb' ((getCC1_throws _ _).1 hg)⟩)
      | ub =>
        right; right
        intro c s
        unfold compileJob
        simp only [he, Outcome.bind_ok, hb, hg, Outcome.bind_ub]
      | ok cc1 =>
        exact .inl ⟨_, _, .mk dir cwd' argv cc1 hdir hc hb' ((C22_front_end_job _ _).1 hg)⟩

/-! ## Writing -/

theorem aloud_append (on : Bool) (s t : Str) : aloud on s ++ aloud on t = aloud on (s ++ t) := by
  cases on <;> rfl

theorem aloud_nil (on : Bool) : aloud on [] = [] := by cases on <;> rfl

theorem log_bind {β : Type} (on : Bool) (s : Str) (f : Unit → Loud β) :
    (logVerbose on s >>= f) = ⟨aloud on s ++ (f ()).said, (f ()).result⟩ := rfl

theorem logLine_bind {β : Type} (on : Bool) (s : Str) (f : Unit → Loud β) :
    (logVerboseLine on s >>= f) = ⟨aloud on (s ++ "\n".toList) ++ (f ()).said, (f ()).result⟩ := rfl

theorem quiet_ok {α β : Type} (a : α) (f : α → Loud β) : (Loud.quiet (.ok a) >>= f) = f a := by
  show Loud.mk ([] ++ _) _ = _
  rfl

theorem quiet_throws {α β : Type} (w : Str) (f : α → Loud β) :
    (Loud.quiet (.throws w) >>= f) = ⟨[], .throws w⟩ := rfl

theorem quiet_ub {α β : Type} (f : α → Loud β) :
    (Loud.quiet (.ub) >>= f) = ⟨[], .ub⟩ := rfl

theorem loud_ok {α β : Type} (s : Str) (a : α) (f : α → Loud β) :
    ((⟨s, .ok a⟩ : Loud α) >>= f) = ⟨s ++ (f a).said, (f a).result⟩ := rfl

theorem loud_throws {α β : Type} (s w : Str) (f : α → Loud β) :
    ((⟨s, .throws w⟩ : Loud α) >>= f) = ⟨s, .throws w⟩ := rfl

theorem loud_ub {α β : Type} (s : Str) (f : α → Loud β) :
    ((⟨s, .ub⟩ : Loud α) >>= f) = ⟨s, .ub⟩ := rfl

theorem loud_pure {α : Type} (a : α) : (pure a : Loud α) = ⟨[], .ok a⟩ := rfl

theorem loud_result {α β : Type} (x : Loud α) (f : α → Loud β) :
    (x >>= f).result = x.result >>= fun a => (f a).result := by
  obtain ⟨s, r⟩ := x
  cases r <;> rfl

/-! ## Writing changes nothing -/

theorem construct_result (on : Bool) (tc : Toolchain U) (exe : Str) (jobs : List (Str × CompileCommand))
    (st : DriverState σ) (units : List U) :
    (verboseConstructCompilers on tc exe st units jobs).result =
      constructCompilers tc exe st units jobs := by
  induction jobs generalizing st units with
  | nil => rfl
  | cons job jobs ih =>
    unfold verboseConstructCompilers constructCompilers
    simp only [log_bind, logLine_bind]
    cases compileJob tc exe false st job with
    | throws w => rfl
    | ub => rfl
    | ok r =>
      simp only [quiet_ok, ih, Outcome.bind_ok]
      cases r.2 <;> simp

theorem staticAnalyzer_result (on : Bool) (tc : Toolchain U) (exe : Str)
    (jobs : List (Str × CompileCommand)) (st : DriverState σ) :
    (verboseStaticAnalyzer on tc exe st jobs).result = invokeClangStaticAnalyzer tc exe st jobs := by
  induction jobs generalizing st with
  | nil => rfl
  | cons job jobs ih =>
    unfold verboseStaticAnalyzer invokeClangStaticAnalyzer
    simp only [log_bind]
    cases compileJob tc exe true st job with
    | throws w => rfl
    | ub => rfl
    | ok r => simp only [quiet_ok, logLine_bind, ih, Outcome.bind_ok]

theorem verboseAnalyze_cons (on : Bool) (mainFile : U → Str) (a : Analyzer U σ) (u : U) (us : List U)
    (st : DriverState σ) :
    verboseAnalyze on mainFile a (u :: us) st =
      (do logVerbose on "Analyzing ".toList
          logVerbose on (mainFile u)
          let r ← Loud.quiet (takeoffAll a u a.filteredRules st.rules [])
          logVerboseLine on " - Done".toList
          verboseAnalyze on mainFile a us (absorb st r)) := rfl

theorem verboseAnalyze_result (on : Bool) (mainFile : U → Str) (a : Analyzer U σ) (units : List U)
    (st : DriverState σ) : (verboseAnalyze on mainFile a units st).result = analyze a units st := by
  induction units generalizing st with
  | nil => rfl
  | cons u us ih =>
    rw [verboseAnalyze_cons, analyze_cons, log_bind, log_bind]
    cases takeoffAll a u a.filteredRules st.rules [] with
    | throws w => rfl
    | ub => rfl
    | ok r => simp only [quiet_ok, logLine_bind, ih, Outcome.bind_ok]

theorem verboseInvoke_result (on : Bool) (mainFile : U → Str) (tc : Toolchain U) (exe : Str)
    (a : Analyzer U σ) (st : DriverState σ) (jobs : List (Str × CompileCommand)) :
    (verboseInvoke on mainFile tc exe a st jobs).result = invoke tc exe a st jobs := by
  unfold verboseInvoke invoke
  simp only [loud_result, construct_result, verboseAnalyze_result]

theorem verboseInvokeEach_result (on : Bool) (mainFile : U → Str) (tc : Toolchain U) (exe : Str)
    (a : Analyzer U σ) (jobs : List (Str × CompileCommand)) (st : DriverState σ) :
    (verboseInvokeEach on mainFile tc exe a st jobs).result = invokeEach tc exe a st jobs := by
  induction jobs generalizing st with
  | nil => rfl
  | cons job jobs ih =>
    unfold verboseInvokeEach invokeEach
    simp only [loud_result, verboseInvoke_result, ih]

theorem commands_eq (absolutePath : Str → Str) (db : Str → List CompileCommand) (sources : List Str) :
    commandsAndSkips absolutePath db sources =
      (constructCompileCommands absolutePath db sources,
        ((sources.map absolutePath).filter fun f => decide (db f = [])).flatMap skipLine) := by
  unfold commandsAndSkips constructCompileCommands
  suffices h : ∀ acc : List (Str × CompileCommand) × Str, sources.foldl
      (fun acc sourcePath =>
        let filePath := absolutePath sourcePath
        let cmds := db filePath
        if cmds.isEmpty then
          (acc.1, acc.2 ++ "Skipping ".toList ++ filePath ++ ". Compile command not found.\n".toList)
        else (cmds.foldl (fun acc cmd => acc ++ [(filePath, cmd)]) acc.1, acc.2)) acc =
      (sources.foldl
        (fun acc sourcePath =>
          let filePath := absolutePath sourcePath
          let cmds := db filePath
          if cmds.isEmpty then acc else cmds.foldl (fun acc cmd => acc ++ [(filePath, cmd)]) acc) acc.1,
        acc.2 ++ ((sources.map absolutePath).filter fun f => decide (db f = [])).flatMap skipLine) from
    h ([], [])
  induction sources with
  | nil => intro acc; simp
  | cons s t ih =>
    intro acc
    rw [List.foldl_cons, ih, List.foldl_cons, List.map_cons]
    cases h : db (absolutePath s) with
    | nil =>
      simp only [h, List.isEmpty_nil, if_true]
      rw [List.filter_cons_of_pos (by simp [h]), List.flatMap_cons]
      unfold skipLine
      simp only [List.append_assoc]
    | cons c cs =>
      simp only [h, List.isEmpty_cons, Bool.false_eq_true, if_false]
      rw [List.filter_cons_of_neg (by simp [h])]

theorem verboseRun_result (on : Bool) (mainFile : U → Str) (tc : Toolchain U) (exe : Str)
    (together checker : Bool) (a : Analyzer U σ) (st : DriverState σ)
    (db : Str → List CompileCommand) (sources : List Str) :
    (verboseRun on mainFile tc exe together checker a st db sources).2.result =
      driverRun tc exe together checker a st db sources := by
  unfold verboseRun driverRun
  simp only [loud_result, commands_eq]
  generalize constructCompileCommands tc.absolutePath db sources = jobs
  have h1 : (verboseBothModes on mainFile tc exe together a st jobs).result =
      if together then invoke tc exe a st jobs else invokeEach tc exe a st jobs := by
    unfold verboseBothModes
    cases together
    · exact verboseInvokeEach_result on mainFile tc exe a jobs st
    · exact verboseInvoke_result on mainFile tc exe a st jobs
  have h2 : ∀ st' : DriverState σ, (verboseChecker on tc exe checker st' jobs).result =
      if checker then invokeClangStaticAnalyzer tc exe st' jobs else pure st' := by
    intro st'
    unfold verboseChecker
    cases checker
    · rfl
    · exact staticAnalyzer_result on tc exe jobs st'
  rw [h1]
  simp only [h2]
  cases together <;> rfl

end Oclint
