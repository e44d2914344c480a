import Verif.Lemmas.BuildScripts

/-!
# Building, testing and checking the project itself (C108)

The scripts `build`, `test`, `dogFooding` and `ci` on any machine: whatever the commands they run return,
whichever file operations fail and whichever directories exist.
-/

namespace Oclint
open Spec

theorem Follows.run {sh : Shell} {A : FileAction → Prop} {p : Script Unit} {c c' : Str}
    {plan : List Planned} (h : Follows sh A p c c' plan) :
    (∃ code, RunOf (Solid sh) plan (commandsOf (p ⟨c, []⟩).2.events) code ∧
      exitStatus (p ⟨c, []⟩).1 = code % 256) ∧
    ∀ a ∈ actionsOf (p ⟨c, []⟩).2.events, A a := by
  obtain ⟨new, h1, h2, h3⟩ := h []
  rw [List.nil_append] at h1
  rw [h1]
  refine ⟨?_, h2⟩
  rcases h3 with ⟨e1, -, e3⟩ | ⟨e, e1, e2⟩
  · exact ⟨0, by rw [e3]; exact .finished, by rw [e1]; rfl⟩
  · exact ⟨e, e2.runOf, by rw [e1]; rfl⟩

/-! ## What the scripts run -/

/-- `build` prepares every part with CMake and builds it, in its own directory and in the order of the
list, up to the first command that fails, and ends with the code of that command; it only touches the
directories of the parts it builds. -/
theorem C108_build (sh : Shell) (root here : Str) (hr : ProjectRoot root) (a : BuildArgs) :
    (∃ code, RunOf (Solid sh) (buildPlan sh.cpuCount root a (partsOf a.moduleName))
      (commandsOf (buildScript sh root a ⟨here, []⟩).2.events) code ∧
      exitStatus (buildScript sh root a ⟨here, []⟩).1 = code % 256) ∧
    ∀ x ∈ actionsOf (buildScript sh root a ⟨here, []⟩).2.events,
      WritesOnly ((partsOf a.moduleName).map (workDir root [])) [] x :=
  (follows_build hr a here).run

/-- `test` does the same in the test directories, and then runs the tests of the part, unless it is only
built for others; besides it only touches the directory for the compiler's headers. -/
theorem C108_test (sh : Shell) (root here : Str) (hr : ProjectRoot root) (a : TestArgs)
    (ha : a.showResults = false) :
    (∃ code, RunOf (Solid sh) (testPlan sh.cpuCount root a (partsOf a.moduleName))
      (commandsOf (testScript sh root a ⟨here, []⟩).2.events) code ∧
      exitStatus (testScript sh root a ⟨here, []⟩).1 = code % 256) ∧
    ∀ x ∈ actionsOf (testScript sh root a ⟨here, []⟩).2.events,
      WritesOnly (headersDir sh.tempDir :: (partsOf a.moduleName).map (workDir root "-test".toList)) [] x :=
  (follows_test hr a ha here).run

/-- `dogFooding` has CMake list the commands that compile a part, and checks the part with the program
that was built; besides its own directories it only writes `compile_commands.json` to the sources. -/
theorem C108_dogfooding (sh : Shell) (root here : Str) (hr : ProjectRoot root) (a : DogArgs)
    (ha : a.showResults = false) :
    (∃ code, RunOf (Solid sh) (dogPlan root a (partsOf a.moduleName))
      (commandsOf (dogScript sh root a ⟨here, []⟩).2.events) code ∧
      exitStatus (dogScript sh root a ⟨here, []⟩).1 = code % 256) ∧
    ∀ x ∈ actionsOf (dogScript sh root a ⟨here, []⟩).2.events,
      WritesOnly ((partsOf a.moduleName).map (workDir root "-dogfooding".toList))
        ((partsOf a.moduleName).map fun m => sourceDir root m ++ "/compile_commands.json".toList) x :=
  (follows_dog hr a ha here).run

/-- `ci` calls the other scripts, and touches nothing itself. -/
theorem C108_ci (sh : Shell) (root here : Str) (a : CiArgs) (ha : a.reset = false) :
    (∃ code, RunOf (Solid sh)
      (ciPlan sh.python sh.cpuCount sh.isDarwin (sh.isDarwin || sh.isLinux) root here a)
      (commandsOf (ciScript sh root a ⟨here, []⟩).2.events) code ∧
      exitStatus (ciScript sh root a ⟨here, []⟩).1 = code % 256) ∧
    ∀ x ∈ actionsOf (ciScript sh root a ⟨here, []⟩).2.events, WritesOnly [] [] x :=
  (follows_ci root a ha here).run

/-! ## ScriptStep by step -/

/-- Everything `build` does, including what it removes, makes, enters and leaves. -/
theorem C108_build_steps (sh : Shell) (root here : Str) (hr : ProjectRoot root) (a : BuildArgs) :
    (exitStatus (buildScript sh root a ⟨here, []⟩).1, (buildScript sh root a ⟨here, []⟩).2) =
      carryOut sh (buildSteps sh.cpuCount root here a) ⟨here, []⟩ :=
  does_exit (does_build hr a here) []

/-- Everything `test` does, also with `-show`. -/
theorem C108_test_steps (sh : Shell) (root here : Str) (hr : ProjectRoot root) (a : TestArgs) :
    (exitStatus (testScript sh root a ⟨here, []⟩).1, (testScript sh root a ⟨here, []⟩).2) =
      carryOut sh (testSteps sh.cpuCount sh.tempDir root here a) ⟨here, []⟩ :=
  test_steps hr a here []

/-- Everything `dogFooding` does, also with `-show`. -/
theorem C108_dogfooding_steps (sh : Shell) (root here : Str) (hr : ProjectRoot root) (a : DogArgs) :
    (exitStatus (dogScript sh root a ⟨here, []⟩).1, (dogScript sh root a ⟨here, []⟩).2) =
      carryOut sh (dogSteps root here a) ⟨here, []⟩ :=
  dog_steps hr a here []

/-- Everything `ci` does, also with `-reset`. -/
theorem C108_ci_steps (sh : Shell) (root here : Str) (hr : ProjectRoot root) (a : CiArgs) :
    (exitStatus (ciScript sh root a ⟨here, []⟩).1, (ciScript sh root a ⟨here, []⟩).2) =
      carryOut sh (ciSteps sh.python sh.cpuCount sh.isDarwin (sh.isDarwin || sh.isLinux) root here a)
        ⟨here, []⟩ :=
  ci_steps hr a here []

/-! ## Green means green -/

/-- Codes as the system reports them: an exit status, or the negated number of a signal. -/
def Ordinary (sh : Shell) : Prop := ∀ ev c cmd, -256 < sh.run ev c cmd ∧ sh.run ev c cmd < 256

theorem code_ordinary {solid : Prop} {plan : List Planned} {log : List (Planned × Int)} {code : Int}
    (h : RunOf solid plan log code) (hl : ∀ x ∈ log, -256 < x.2 ∧ x.2 < 256) (h0 : code % 256 = 0) :
    log = passed plan := by
  cases h with
  | finished => rfl
  | failed before step after _ h1 h2 =>
    have := hl (step, code) (by simp)
    simp only at this
    omega
  | broken before after h1 h2 => simp at h0
  | unread before step after c h1 h2 h3 => simp at h0

theorem carryOut_ordinary {sh : Shell} (ho : Ordinary sh) : ∀ (steps : List ScriptStep) (s : ScriptState),
    (∀ x ∈ commandsOf s.events, -256 < x.2 ∧ x.2 < 256) →
    ∀ x ∈ commandsOf (carryOut sh steps s).2.events, -256 < x.2 ∧ x.2 < 256
  | [], _, h => h
  | step :: rest, s, h => by
    have hrun : ∀ cmd : Str, ∀ x ∈ commandsOf (s.events ++ [.ran s.cwd cmd (sh.run s.events s.cwd cmd)]),
        -256 < x.2 ∧ x.2 < 256 := by
      intro cmd x hx
      rw [commandsOf_append] at hx
      rcases List.mem_append.1 hx with hx | hx
      · exact h x hx
      · simp [commandsOf] at hx
        rw [hx]
        exact ho _ _ _
    have hact : ∀ (a : FileAction) (t : ScriptState),
        (∀ x ∈ commandsOf t.events, -256 < x.2 ∧ x.2 < 256) →
        ∀ x ∈ commandsOf (doAction sh a t).2.events, -256 < x.2 ∧ x.2 < 256 := by
      intro a t ht x hx
      unfold doAction at hx
      split at hx
      · rw [commandsOf_append] at hx
        have e : commandsOf [ScriptEvent.did a] = [] := rfl
        rw [e, List.append_nil] at hx
        exact ht x hx
      · exact ht x hx
    have hstep : ∀ x ∈ commandsOf (doStep sh s step).2.events, -256 < x.2 ∧ x.2 < 256 := by
      cases step with
      | run cmd => exact hrun cmd
      | runAndShow cmd file => exact hact (.show file) _ (hrun cmd)
      | act a => exact hact a s h
      | clear d =>
        simp only [doStep]
        split
        · exact hact _ s h
        · exact h
      | ensure d =>
        simp only [doStep]
        split
        · exact h
        · exact hact _ s h
      | compiler r =>
        intro x hx
        simp only [doStep, commandsOf_append] at hx
        rcases List.mem_append.1 hx with hx | hx
        · exact h x hx
        · split at hx
          · simp [commandsOf] at hx
          · simp [commandsOf] at hx
    rw [carryOut]
    cases hd : doStep sh s step with
    | mk r s' =>
      rw [hd] at hstep
      cases r with
      | none => exact carryOut_ordinary ho rest s' hstep
      | some e => exact hstep

theorem green {sh : Shell} (ho : Ordinary sh) {p : Script Unit} {c : Str} {plan : List Planned}
    {steps : List ScriptStep}
    (h1 : ∃ code, RunOf (Solid sh) plan (commandsOf (p ⟨c, []⟩).2.events) code ∧
      exitStatus (p ⟨c, []⟩).1 = code % 256)
    (h2 : (exitStatus (p ⟨c, []⟩).1, (p ⟨c, []⟩).2) = carryOut sh steps ⟨c, []⟩)
    (h0 : exitStatus (p ⟨c, []⟩).1 = 0) : commandsOf (p ⟨c, []⟩).2.events = passed plan := by
  obtain ⟨code, hc, he⟩ := h1
  refine code_ordinary hc ?_ (by rw [← he, h0])
  have e : (p ⟨c, []⟩).2 = (carryOut sh steps ⟨c, []⟩).2 := by rw [← h2]
  rw [e]
  exact carryOut_ordinary ho steps _ (by simp [commandsOf])

/-- If `build` ends with status 0 everything it was to do was done and succeeded. -/
theorem C108_build_green (sh : Shell) (ho : Ordinary sh) (root here : Str) (hr : ProjectRoot root)
    (a : BuildArgs) (h : exitStatus (buildScript sh root a ⟨here, []⟩).1 = 0) :
    commandsOf (buildScript sh root a ⟨here, []⟩).2.events =
      passed (buildPlan sh.cpuCount root a (partsOf a.moduleName)) :=
  green ho (C108_build sh root here hr a).1 (C108_build_steps sh root here hr a) h

/-- If `test` ends with status 0 the tests of every part were run and succeeded. -/
theorem C108_test_green (sh : Shell) (ho : Ordinary sh) (root here : Str) (hr : ProjectRoot root)
    (a : TestArgs) (ha : a.showResults = false) (hd : a.asDep = false)
    (h : exitStatus (testScript sh root a ⟨here, []⟩).1 = 0) :
    ∀ m ∈ partsOf a.moduleName, (ctest root m, 0) ∈
      commandsOf (testScript sh root a ⟨here, []⟩).2.events := by
  intro m hm
  rw [green ho (C108_test sh root here hr a ha).1 (C108_test_steps sh root here hr a) h]
  refine List.mem_map.2 ⟨ctest root m, List.mem_flatMap.2 ⟨m, hm, ?_⟩, rfl⟩
  rw [hd]
  simp

/-- If `dogFooding` ends with status 0 every part was checked and no violation was found. -/
theorem C108_dogfooding_green (sh : Shell) (ho : Ordinary sh) (root here : Str) (hr : ProjectRoot root)
    (a : DogArgs) (ha : a.showResults = false)
    (h : exitStatus (dogScript sh root a ⟨here, []⟩).1 = 0) :
    ∀ m ∈ partsOf a.moduleName, (check root a m, 0) ∈
      commandsOf (dogScript sh root a ⟨here, []⟩).2.events := by
  intro m hm
  rw [green ho (C108_dogfooding sh root here hr a ha).1 (C108_dogfooding_steps sh root here hr a) h]
  refine List.mem_map.2 ⟨check root a m, List.mem_flatMap.2 ⟨m, hm, ?_⟩, rfl⟩
  simp

/-- If `ci` ends with status 0 every script it calls has succeeded: without `-release` the tests, and on
macOS and Linux the check of the project. -/
theorem C108_ci_green (sh : Shell) (ho : Ordinary sh) (root here : Str) (hr : ProjectRoot root)
    (a : CiArgs) (ha : a.reset = false) (h : exitStatus (ciScript sh root a ⟨here, []⟩).1 = 0) :
    commandsOf (ciScript sh root a ⟨here, []⟩).2.events =
      passed (ciPlan sh.python sh.cpuCount sh.isDarwin (sh.isDarwin || sh.isLinux) root here a) :=
  green ho (C108_ci sh root here a ha).1 (C108_ci_steps sh root here hr a) h

theorem runOf_good {sh : Shell} (hs : Solid sh) {plan : List Planned} {log : List (Planned × Int)}
    {code : Int} (h : RunOf (Solid sh) plan log code) (hl : ∀ x ∈ log, x.2 = 0) :
    log = passed plan ∧ code = 0 := by
  cases h with
  | finished => exact ⟨rfl, rfl⟩
  | failed before step after _ h1 h2 => exact absurd (hl (step, code) (by simp)) h2
  | broken before after h1 h2 => exact absurd hs h1
  | unread before step after c h1 h2 h3 => exact absurd hs h1

/-- The other way round: a script that runs only commands that succeed, on a machine where file operations
work, ends with status 0 and has run all of them. -/
theorem C108_good (sh : Shell) (hs : Solid sh) (plan : List Planned) (p : Script Unit) (here : Str)
    (h : ∃ code, RunOf (Solid sh) plan (commandsOf (p ⟨here, []⟩).2.events) code ∧
      exitStatus (p ⟨here, []⟩).1 = code % 256)
    (hl : ∀ x ∈ commandsOf (p ⟨here, []⟩).2.events, x.2 = 0) :
    exitStatus (p ⟨here, []⟩).1 = 0 ∧ commandsOf (p ⟨here, []⟩).2.events = passed plan := by
  obtain ⟨code, hc, he⟩ := h
  obtain ⟨h1, h2⟩ := runOf_good hs hc hl
  exact ⟨by rw [he, h2]; rfl, h1⟩

/-! ## Order and directories -/

/-- Whatever a part is built on is built before it. -/
theorem C108_dependencies (before after : List OclintModule) (m : OclintModule)
    (h : chosenModules none = before ++ m :: after) : ∀ d ∈ needs m, d ∈ before := by
  have key : ∀ k, k < 5 → oclintModules[k]? = some m → ∀ d ∈ needs m, d ∈ oclintModules.take k := by
    intro k hk
    cases m <;> revert k <;> decide +kernel
  have h5 : oclintModules.length = before.length + (after.length + 1) := by
    have := congrArg List.length h
    simpa [chosenModules] using this
  have e1 : oclintModules[before.length]? = some m := by
    show (chosenModules none)[before.length]? = some m
    rw [h]
    simp
  have e2 : oclintModules.take before.length = before := by
    show (chosenModules none).take before.length = before
    rw [h]
    simp
  have hlen : oclintModules.length = 5 := rfl
  have := key before.length (by omega) e1
  rwa [e2] at this

/-- Every part is built, tested and checked in a directory of its own, which is none of those of the
release, of LLVM and of the test framework. -/
theorem C108_directories (root s s' : Str) (m m' : OclintModule)
    (hs : s ∈ [[], "-test".toList, "-dogfooding".toList])
    (hs' : s' ∈ [[], "-test".toList, "-dogfooding".toList]) :
    (workDir root s m = workDir root s' m' → s = s' ∧ m = m') ∧
    workDir root s m ≠ root ++ "/build/oclint-release".toList ∧
    workDir root s m ≠ root ++ "/build/llvm-install".toList ∧
    workDir root s m ≠ root ++ "/build/googletest".toList := by
  unfold workDir
  simp only [List.append_assoc, ne_eq, List.append_cancel_left_eq]
  have key : ∀ s ∈ [[], "-test".toList, "-dogfooding".toList],
      ∀ s' ∈ [[], "-test".toList, "-dogfooding".toList],
      (m.name ++ s = m'.name ++ s' → s = s' ∧ m = m') ∧
      ¬ "/build/oclint-".toList ++ (m.name ++ s) = "/build/oclint-release".toList ∧
      ¬ "/build/oclint-".toList ++ (m.name ++ s) = "/build/llvm-install".toList ∧
      ¬ "/build/oclint-".toList ++ (m.name ++ s) = "/build/googletest".toList := by
    cases m <;> cases m' <;> decide +kernel
  exact key s hs s' hs'

/-! ## Spaces -/

theorem unwords_eq_intercalate (ws : List Str) : unwords ws = [' '].intercalate ws := by
  induction ws with
  | nil => rfl
  | cons w ws ih =>
    cases ws with
    | nil => simp [unwords, List.intercalate]
    | cons v ws =>
      show w ++ ' ' :: unwords (v :: ws) = _
      rw [ih]
      simp [List.intercalate]

theorem splitOn_unwords (ws : List Str) (h : ∀ w ∈ ws, ' ' ∉ w) (hn : ws ≠ []) :
    (unwords ws).splitOn ' ' = ws := by
  rw [unwords_eq_intercalate]
  exact List.splitOn_intercalate ' ' h hn

/-- The shell takes a command apart at spaces. -/
def noSpace (w : Str) : Prop := ' ' ∉ w

theorem noSpace_append {a b : Str} (ha : noSpace a) (hb : noSpace b) : noSpace (a ++ b) := by
  unfold noSpace at *
  simp [ha, hb]

theorem noSpace_define {k v w : Str} (hk : noSpace k) (hv : noSpace v) (hw : w ∈ define k v) : noSpace w := by
  unfold define at hw
  have h1 : noSpace "-D".toList := by unfold noSpace; decide +kernel
  generalize "-D".toList = d at h1 hw
  simp only [List.mem_cons, List.not_mem_nil, or_false] at hw
  rcases hw with rfl | rfl
  · exact h1
  · refine noSpace_append hk ?_
    unfold noSpace at *
    simp only [List.mem_cons, not_or]
    exact ⟨by decide, hv⟩

theorem noSpace_source {root : Str} (h : noSpace root) (m : OclintModule) : noSpace (sourceDir root m) := by
  unfold sourceDir
  refine noSpace_append (noSpace_append h (by unfold noSpace; decide +kernel)) ?_
  unfold noSpace
  cases m <;> decide +kernel

theorem noSpace_tells {root suffix w : Str} (h : noSpace root) (hs : noSpace suffix) (m : OclintModule)
    (hw : w ∈ tells root suffix m) : noSpace w := by
  have lit : ∀ x ∈ ["OCLINT_SOURCE_DIR".toList, "OCLINT_BUILD_DIR".toList,
      "OCLINT_METRICS_SOURCE_DIR".toList, "OCLINT_METRICS_BUILD_DIR".toList, "/oclint-core".toList,
      "/build/oclint-core".toList, "/oclint-metrics".toList, "/build/oclint-metrics".toList],
      noSpace x := by
    unfold noSpace
    decide +kernel
  simp only [List.forall_mem_cons] at lit
  obtain ⟨l1, l2, l3, l4, l5, l6, l7, l8, -⟩ := lit
  cases m with
  | core =>
    rcases List.mem_append.1 hw with hw | hw
    · exact noSpace_define l1 (noSpace_append h l5) hw
    · exact noSpace_define l2 (noSpace_append (noSpace_append h l6) hs) hw
  | metrics =>
    rcases List.mem_append.1 hw with hw | hw
    · exact noSpace_define l3 (noSpace_append h l7) hw
    · exact noSpace_define l4 (noSpace_append (noSpace_append h l8) hs) hw
  | rules => exact absurd hw (List.not_mem_nil)
  | reporters => exact absurd hw (List.not_mem_nil)
  | driver => exact absurd hw (List.not_mem_nil)

/-- If neither the directory of the project nor that of LLVM has a space in its name, CMake is called by
`build` with the words that were meant. -/
theorem C108_words_partial (root : Str) (hr : ProjectRoot root) (a : BuildArgs) (m : OclintModule)
    (h1 : ' ' ∉ root) (h2 : ' ' ∉ a.llvmRoot) :
    (buildCommand a (moduleExtras root (moduleOwnBuildDir root) m) (moduleSourceDir root m)).splitOn ' ' =
      buildWords root a m := by
  rw [buildCommand_eq hr]
  refine splitOn_unwords _ ?_ (List.append_ne_nil_of_right_ne_nil _ (List.cons_ne_nil _ _))
  have lit : ∀ x ∈ ["cmake".toList, "-G".toList, "Ninja".toList, "OCLINT_BUILD_TYPE".toList,
      "Release".toList, "DOC_GEN_BUILD".toList, "1".toList, "LLVM_ROOT".toList], noSpace x := by
    unfold noSpace
    decide +kernel
  unfold buildWords
  generalize "cmake".toList = s1, "-G".toList = s2, "Ninja".toList = s3, "OCLINT_BUILD_TYPE".toList = s4,
    "Release".toList = s5, "DOC_GEN_BUILD".toList = s6, "1".toList = s7, "LLVM_ROOT".toList = s8 at lit ⊢
  simp only [List.forall_mem_cons] at lit
  obtain ⟨l1, l2, l3, l4, l5, l6, l7, l8, -⟩ := lit
  intro w hw
  simp only [List.mem_append] at hw
  rcases hw with (((((hw | hw) | hw) | hw) | hw) | hw) | hw
  · rw [List.mem_singleton.1 hw]
    exact l1
  · split at hw
    · exact absurd hw List.not_mem_nil
    · rcases List.mem_cons.1 hw with rfl | hw
      · exact l2
      · rw [List.mem_singleton.1 hw]
        exact l3
  · split at hw
    · exact noSpace_define l4 l5 hw
    · exact absurd hw List.not_mem_nil
  · split at hw
    · exact noSpace_define l6 l7 hw
    · exact absurd hw List.not_mem_nil
  · exact noSpace_define l8 h2 hw
  · obtain ⟨d, -, hd⟩ := List.mem_flatMap.1 hw
    exact noSpace_tells h1 (by unfold noSpace; simp) d hd
  · rw [List.mem_singleton.1 hw]
    exact noSpace_source h1 m

/-- In a directory with a space in its name CMake is called with other words: paths are not quoted. -/
theorem C108_words_witness :
    ∃ (root : Str) (a : BuildArgs) (m : OclintModule), ProjectRoot root ∧
      (buildCommand a (moduleExtras root (moduleOwnBuildDir root) m) (moduleSourceDir root m)).splitOn ' ' ≠
        buildWords root a m := by
  refine ⟨"/my code".toList, { llvmRoot := "/llvm".toList }, .core, ?_, ?_⟩
  · unfold ProjectRoot
    decide +kernel
  · decide +kernel

/-! ## Releases -/

/-- `ci -release` calls no tests. -/
theorem C108_release_untested (sh : Shell) (root here : Str) (a : CiArgs) (ha : a.reset = false)
    (hr : a.release = true) (hs : a.setup = false) :
    ∀ x ∈ commandsOf (ciScript sh root a ⟨here, []⟩).2.events,
      ∀ ws, x.1.2 ≠ unwords (sh.python :: "test".toList :: ws) := by
  obtain ⟨⟨code, hc, -⟩, -⟩ := C108_ci sh root here a ha
  have hmem : ∀ x ∈ commandsOf (ciScript sh root a ⟨here, []⟩).2.events,
      x.1 ∈ ciPlan sh.python sh.cpuCount sh.isDarwin (sh.isDarwin || sh.isLinux) root here a := by
    have hp : ∀ (l : List Planned) (x : Planned × Int), x ∈ passed l → x.1 ∈ l := by
      intro l x hx
      obtain ⟨y, hy, rfl⟩ := List.mem_map.1 hx
      exact hy
    generalize commandsOf (ciScript sh root a ⟨here, []⟩).2.events = log at hc
    intro x hx
    cases hc with
    | finished => exact hp _ x hx
    | failed before step after _ h1 h2 =>
      rw [h1]
      rcases List.mem_append.1 hx with hx | hx
      · exact List.mem_append_left _ (hp _ x hx)
      · rw [List.mem_singleton.1 hx]
        simp
    | broken before after h1 h2 =>
      rw [h2]
      exact List.mem_append_left _ (hp _ x hx)
    | unread before step after c h1 h2 h3 =>
      rw [h2]
      rcases List.mem_append.1 hx with hx | hx
      · exact List.mem_append_left _ (hp _ x hx)
      · rw [List.mem_singleton.1 hx]
        simp
  intro x hx ws
  have hx := hmem x hx
  have key : ∀ (w : Str) (vs : List Str), w.head? = some 'b' →
      unwords (sh.python :: w :: vs) ≠ unwords (sh.python :: "test".toList :: ws) := by
    intro w vs hw he
    have ht : "test".toList = 't' :: "est".toList := by decide +kernel
    rw [ht] at he
    have e1 : ∀ (p v : Str) (vs : List Str), unwords (p :: v :: vs) = p ++ ' ' :: unwords (v :: vs) :=
      fun _ _ _ => rfl
    rw [e1, e1, List.append_cancel_left_eq] at he
    have e2 : ∀ (v : Str) (vs : List Str), v.head? ≠ none → (unwords (v :: vs)).head? = v.head? := by
      intro v vs hv
      cases v with
      | nil => simp at hv
      | cons c v => cases vs <;> rfl
    have e3 := congrArg List.head? (List.cons.inj he).2
    rw [e2 _ _ (by simp [hw]), e2 _ _ (by simp), hw] at e3
    simp at e3
  unfold ciPlan ciCalls at hx
  simp only [hr, hs, if_true, Bool.false_eq_true, if_false, not_true_eq_false, and_false,
    List.nil_append, List.append_nil, List.map_append, List.mem_append, List.map_cons, List.map_nil,
    List.mem_singleton] at hx
  have hb1 : ("build".toList).head? = some 'b' := by decide +kernel
  have hb2 : ("bundle".toList).head? = some 'b' := by decide +kernel
  rcases hx with (hx | hx) | hx
  · rw [hx]
    exact key _ _ hb1
  · rw [hx]
    exact key _ _ hb2
  · split at hx
    · simp only [List.map_cons, List.map_nil, List.mem_singleton] at hx
      rw [hx]
      exact key _ _ hb2
    · exact absurd hx List.not_mem_nil

/-! ## Examples -/

/-- A machine on which everything works but the tests of the rules fail. -/
def exShell : Shell where
  run _ _ cmd := if (ctest "/o".toList .rules).2 = cmd then 8 else 0
  works _ _ := true
  isDir _ _ := false
  pathExists _ _ := true
  cpuCount := 4
  tempDir := "/tmp".toList
  python := "python3".toList
  isDarwin := false
  isLinux := true

example : ProjectRoot "/o".toList ∧ Solid exShell ∧ Ordinary exShell := by
  refine ⟨?_, fun _ _ => rfl, fun _ _ _ => ?_⟩
  · unfold ProjectRoot
    decide +kernel
  · unfold exShell
    simp only
    split <;> omega

/-- The tests of the core and of the metrics are run, those of the rules fail, and the script ends with
their code; nothing is run for the reporters and the driver. -/
example :
    let r := testScript exShell "/o".toList { llvmRoot := "/l".toList } ⟨"/o/oclint-scripts".toList, []⟩
    exitStatus r.1 = 8 ∧ (commandsOf r.2.events).length = 9 ∧
      (ctest "/o".toList .metrics, 0) ∈ commandsOf r.2.events ∧
      (commandsOf r.2.events).getLast? = some (ctest "/o".toList .rules, 8) := by
  decide +kernel

example :
    let r := buildScript exShell "/o".toList { llvmRoot := "/l".toList, moduleName := some .reporters, j := 2 }
      ⟨"/o/oclint-scripts".toList, []⟩
    exitStatus r.1 = 0 ∧ commandsOf r.2.events =
      [(("/o/build/oclint-reporters".toList, ("cmake -G Ninja -D LLVM_ROOT=/l -D OCLINT_SOURCE_DIR=".toList ++
          "/o/oclint-core -D OCLINT_BUILD_DIR=/o/build/oclint-core /o/oclint-reporters".toList)), 0),
        (("/o/build/oclint-reporters".toList, "ninja -j 2".toList), 0)] := by
  decide +kernel

example :
    (commandsOf (ciScript exShell "/o".toList ⟨false, false, false, false, 0⟩
        ⟨"/o/oclint-scripts".toList, []⟩).2.events).map (·.1.2) =
      ["python3 test -clean -j 4".toList, "python3 build -clean -j 4".toList, "python3 bundle".toList,
        "python3 dogFooding -enable-clang-static-analyzer".toList] := by
  decide +kernel

end Oclint
