import Verif.Lemmas.CmakeCache
import Verif.Props.CiScripts

/-!
# C121: a build has what it was asked for

`build` does so if it is called with `-clean`.  Otherwise CMake remembers what earlier calls asked for.
-/

namespace Oclint
open Spec

/-! ## One call of `build` -/

theorem workDir_apart (root : Str) {m m' : OclintModule} (h : m ≠ m') :
    workDir root [] m' ≠ workDir root [] m ∧ ¬ workDir root [] m ++ ['/'] <+: workDir root [] m' := by
  unfold workDir
  simp only [List.append_assoc, ne_eq, List.append_cancel_left_eq, List.prefix_append_right_inj]
  revert h
  cases m <;> cases m' <;> decide +kernel

theorem cleared {sh : Shell} {root : Str} {caches : Str → CmakeCache} (hd : InDirectories sh caches)
    (ms : List OclintModule) (s t : ScriptState)
    (h : Carried sh (ms.map fun m => .clear (workDir root [] m)) s t) :
    (∀ m ∈ ms, ∀ k, cachesAfter caches t.events (workDir root [] m) k = none) ∧
      ∀ m, m ∉ ms → cachesAfter caches t.events (workDir root [] m) =
        cachesAfter caches s.events (workDir root [] m) := by
  induction ms generalizing s with
  | nil =>
    have : s = t := h
    subst this
    exact ⟨by simp, fun _ _ => rfl⟩
  | cons x ms ih =>
    obtain ⟨u, h1, h2⟩ := h
    obtain ⟨i1, i2⟩ := ih u h2
    obtain ⟨c1, c2⟩ := step_clear hd h1
    refine ⟨fun m hm k => ?_, fun m hm => ?_⟩
    · by_cases hin : m ∈ ms
      · exact i1 m hin k
      · rcases List.mem_cons.1 hm with rfl | hm
        · rw [i2 m hin]
          exact c1 k
        · exact absurd hm hin
    · rw [List.mem_cons, not_or] at hm
      rw [i2 m hm.2]
      have := workDir_apart root (Ne.symm hm.1)
      exact c2 _ this.1 this.2

theorem built {sh : Shell} {root here : Str} (hr : ProjectRoot root) {a : BuildArgs} (h1 : ' ' ∉ root)
    (h2 : ' ' ∉ a.llvmRoot) (caches : Str → CmakeCache) (ms : List OclintModule) (hn : ms.Nodup)
    (s t : ScriptState)
    (h : Carried sh (ms.flatMap fun m =>
      [.ensure (workDir root [] m), .act (.enter (workDir root [] m)), .run (unwords (buildWords root a m)),
        .run (builder sh.cpuCount a.noNinja a.j), .act (.enter here)]) s t) (d : Str) :
    (∀ m ∈ ms, d = workDir root [] m → cachesAfter caches t.events d =
      (askedFor root a m).foldl CmakeCache.put (cachesAfter caches s.events d)) ∧
    ((∀ m ∈ ms, d ≠ workDir root [] m) → cachesAfter caches t.events d = cachesAfter caches s.events d) := by
  induction ms generalizing s with
  | nil =>
    have : s = t := h
    subst this
    exact ⟨by simp, fun _ => rfl⟩
  | cons x ms ih =>
    rw [List.flatMap_cons, carried_append] at h
    obtain ⟨u, ⟨s1, p1, s2, p2, s3, p3, s4, p4, s5, p5, rfl⟩, hu⟩ := h
    rw [List.nodup_cons] at hn
    obtain ⟨i1, i2⟩ := ih hn.2 s5 hu
    obtain ⟨-, e1⟩ := step_ensure p1 caches
    obtain ⟨w2, e2⟩ := step_enter p2 caches
    obtain ⟨w3, e3⟩ := step_run p3 caches
    obtain ⟨-, e4⟩ := step_run p4 caches
    obtain ⟨-, e5⟩ := step_enter p5 caches
    have e4' : cachesAfter caches s4.events = cachesAfter caches s3.events := funext fun y => by
      rw [e4 y, run_other (builder_head _ _ _)]
      simp
    have key : cachesAfter caches s5.events d = if d = workDir root [] x then
        (askedFor root a x).foldl CmakeCache.put (cachesAfter caches s.events d)
        else cachesAfter caches s.events d := by
      rw [e5, e4', e3, w2, e2, e1, run_build hr h1 h2]
    refine ⟨fun m hm hd => ?_, fun hd => ?_⟩
    · rcases List.mem_cons.1 hm with rfl | hm
      · rw [i2 fun y hy he => ?_, key, if_pos hd]
        have : m ≠ y := by
          rintro rfl
          exact hn.1 hy
        exact (workDir_apart root this).1 (he.symm.trans hd)
      · rw [i1 m hm hd, key, if_neg ?_]
        rintro he
        have : x ≠ m := by
          rintro rfl
          exact hn.1 hm
        exact (workDir_apart root this).1 (hd.symm.trans he)
    · rw [i2 fun y hy => hd y (List.mem_cons_of_mem _ hy), key, if_neg (hd x List.mem_cons_self)]

/-- **C121.** After a call of `build` that succeeds CMake works, for each part that was built, with what it
was asked for; and without `-clean` also with whatever it was asked for by earlier calls and not by this
one. -/
theorem C121_remembered (sh : Shell) (ho : Ordinary sh) (root here : Str) (hr : ProjectRoot root)
    (a : BuildArgs) (h1 : ' ' ∉ root) (h2 : ' ' ∉ a.llvmRoot) (caches : Str → CmakeCache)
    (hd : InDirectories sh caches) (h : exitStatus (buildScript sh root a ⟨here, []⟩).1 = 0)
    (m : OclintModule) (hm : m ∈ partsOf a.moduleName) (k : Str) :
    cachesAfter caches (buildScript sh root a ⟨here, []⟩).2.events (workDir root [] m) k =
      ((askedFor root a m).lookup k).or (if a.clean then none else caches (workDir root [] m) k) := by
  have hs := C108_build_steps sh root here hr a
  have e1 : (carryOut sh (buildSteps sh.cpuCount root here a) ⟨here, []⟩).1 = 0 := by rw [← hs]; exact h
  have e2 : (carryOut sh (buildSteps sh.cpuCount root here a) ⟨here, []⟩).2 =
      (buildScript sh root a ⟨here, []⟩).2 := by rw [← hs]
  have hc := carryOut_carried ho _ _ e1
  rw [e2] at hc
  generalize (buildScript sh root a ⟨here, []⟩).2 = t at hc ⊢
  unfold buildSteps at hc
  obtain ⟨u, hu, hb⟩ := (carried_append _ _ _ _).1 hc
  obtain ⟨v, hv, hcl⟩ := (carried_append _ _ _ _).1 hu
  have ev : cachesAfter caches v.events = caches := by
    split at hv
    · obtain ⟨w, p, rfl⟩ := hv
      exact step_compiler p caches
    · have : (⟨here, []⟩ : ScriptState) = v := hv
      subst this
      rfl
  have eu : cachesAfter caches u.events (workDir root [] m) k =
      if a.clean then none else caches (workDir root [] m) k := by
    split at hcl
    · rename_i hcn
      rw [if_pos hcn]
      exact (cleared hd _ _ _ hcl).1 m hm k
    · rename_i hcn
      rw [if_neg hcn]
      have : v = u := hcl
      rw [← this, ev]
  have hn : (partsOf a.moduleName).Nodup := by
    cases a.moduleName with
    | none => decide
    | some x => simp [partsOf]
  rw [(built hr h1 h2 caches _ hn u t hb (workDir root [] m)).1 m hm rfl, putAll_lookup _ (asked_nodup _ _ _), eu]

/-! ## What the compiler is told -/

theorem docgen_flag (clang apple : Bool) (c : CmakeCache) :
    ForDocumentation clang apple c ↔ cmakeTrue (c "DOC_GEN_BUILD".toList) = true := by
  unfold ForDocumentation cxxFlags
  generalize hb : decide (c (chars! "OCLINT_BUILD_TYPE") = some (chars! "Release")) = b
  have hb' : (c (chars! "OCLINT_BUILD_TYPE") = some (chars! "Release")) ↔ b = true := by
    rw [← hb, decide_eq_true_eq]
  simp only [hb']
  show _ ↔ cmakeTrue (c (chars! "DOC_GEN_BUILD")) = true
  generalize cmakeTrue (c (chars! "DOC_GEN_BUILD")) = g
  clear hb hb'
  revert clang apple b g
  decide +kernel

theorem optimized_flag (clang apple : Bool) (c : CmakeCache) :
    Optimized clang apple c ↔ c "OCLINT_BUILD_TYPE".toList = some "Release".toList := by
  unfold Optimized cxxFlags
  show _ ↔ c (chars! "OCLINT_BUILD_TYPE") = some (chars! "Release")
  generalize hb : decide (c (chars! "OCLINT_BUILD_TYPE") = some (chars! "Release")) = b
  have hb' : (c (chars! "OCLINT_BUILD_TYPE") = some (chars! "Release")) ↔ b = true := by
    rw [← hb, decide_eq_true_eq]
  simp only [hb']
  generalize cmakeTrue (c (chars! "DOC_GEN_BUILD")) = g
  clear hb hb'
  revert clang apple b g
  decide +kernel

theorem lookup_absent {l : List (Str × Str)} {k : Str} (h : k ∉ l.map (·.1)) : l.lookup k = none := by
  rw [List.lookup_eq_none_iff]
  intro p hp
  simp only [bne_iff_ne]
  rintro rfl
  exact h (List.mem_map.2 ⟨p, hp, rfl⟩)

theorem asked_keys (root : Str) (m : OclintModule) (llvm : Str) :
    (("LLVM_ROOT".toList, llvm) :: (needs m).flatMap (partPlaces root)).map (·.1) =
      (("LLVM_ROOT".toList, []) :: (needs m).flatMap (partPlaces [])).map (·.1) := by
  cases m <;> rfl

theorem asked_docgen (root : Str) (a : BuildArgs) (m : OclintModule) :
    (askedFor root a m).lookup "DOC_GEN_BUILD".toList = if a.docgen then some "1".toList else none := by
  unfold askedFor
  rw [List.lookup_append, List.lookup_append, lookup_absent (l := _ :: _)]
  · generalize a.release = r, a.docgen = g
    revert r g
    decide +kernel
  · rw [asked_keys]
    cases m <;> decide +kernel

theorem asked_release (root : Str) (a : BuildArgs) (m : OclintModule) :
    (askedFor root a m).lookup "OCLINT_BUILD_TYPE".toList = if a.release then some "Release".toList else none := by
  unfold askedFor
  rw [List.lookup_append, List.lookup_append, lookup_absent (l := _ :: _)]
  · generalize a.release = r, a.docgen = g
    revert r g
    decide +kernel
  · rw [asked_keys]
    cases m <;> decide +kernel

/-- **C121.** After a call of `build` that succeeds, a part is compiled for the documentation exactly if
this call asked for it, or if it was not called with `-clean` and the part was compiled so before; and the
same for optimization. -/
theorem C121_options (sh : Shell) (ho : Ordinary sh) (root here : Str) (hr : ProjectRoot root)
    (a : BuildArgs) (h1 : ' ' ∉ root) (h2 : ' ' ∉ a.llvmRoot) (caches : Str → CmakeCache)
    (hd : InDirectories sh caches) (h : exitStatus (buildScript sh root a ⟨here, []⟩).1 = 0)
    (m : OclintModule) (hm : m ∈ partsOf a.moduleName) (clang apple : Bool) :
    (ForDocumentation clang apple (cachesAfter caches (buildScript sh root a ⟨here, []⟩).2.events
        (workDir root [] m)) ↔
      a.docgen = true ∨ (a.clean = false ∧ ForDocumentation clang apple (caches (workDir root [] m)))) ∧
    (Optimized clang apple (cachesAfter caches (buildScript sh root a ⟨here, []⟩).2.events
        (workDir root [] m)) ↔
      a.release = true ∨ (a.clean = false ∧ Optimized clang apple (caches (workDir root [] m)))) := by
  have key := C121_remembered sh ho root here hr a h1 h2 caches hd h m hm
  have t : cmakeTrue (some "1".toList) = true := by decide +kernel
  constructor
  · rw [docgen_flag, docgen_flag, key, asked_docgen]
    cases a.docgen <;> cases a.clean <;> simp [cmakeTrue] at t ⊢
    · exact t
    · exact t
  · rw [optimized_flag, optimized_flag, key, asked_release]
    cases a.release <;> cases a.clean <;> simp

/-- **C121** (partial: with `-clean`) after a call of `build` with `-clean` that succeeds, every part is
compiled for the documentation exactly if this call asked for it, and optimized exactly if it did. -/
theorem C121_clean_partial (sh : Shell) (ho : Ordinary sh) (root here : Str) (hr : ProjectRoot root)
    (a : BuildArgs) (h1 : ' ' ∉ root) (h2 : ' ' ∉ a.llvmRoot) (caches : Str → CmakeCache)
    (hd : InDirectories sh caches) (h : exitStatus (buildScript sh root a ⟨here, []⟩).1 = 0)
    (hc : a.clean = true) (m : OclintModule) (hm : m ∈ partsOf a.moduleName) (clang apple : Bool) :
    (ForDocumentation clang apple (cachesAfter caches (buildScript sh root a ⟨here, []⟩).2.events
        (workDir root [] m)) ↔ a.docgen = true) ∧
    (Optimized clang apple (cachesAfter caches (buildScript sh root a ⟨here, []⟩).2.events
        (workDir root [] m)) ↔ a.release = true) := by
  have := C121_options sh ho root here hr a h1 h2 caches hd h m hm clang apple
  simpa [hc] using this

/-! ## What goes wrong -/

/-- A machine on which everything succeeds and every directory is there. -/
def fineShell : Shell where
  run := fun _ _ _ => 0
  works := fun _ _ => true
  isDir := fun _ _ => true
  pathExists := fun _ _ => true
  cpuCount := 4
  tempDir := "/tmp".toList
  python := "python3".toList
  isDarwin := false
  isLinux := true

/-- Its shell. -/
def finePosix : PosixShell where
  builtinCode := 1
  hasSize := fun _ _ => true
  testOdd := fun _ _ => false

/-- What CMake remembers after `docGen` and a call of `build` after it, if it remembered nothing before. -/
def afterDocGen (root here : Str) (a : BuildArgs) : Str → CmakeCache :=
  cachesAfter (cachesAfter (fun _ _ => none) (docGenScript fineShell finePosix root ⟨here, []⟩).2.events)
    (buildScript fineShell root a ⟨here, []⟩).2.events

/-- **C121, what is false of the code.** On a machine where everything succeeds, after `docGen` the script
`build` without `-clean`, as `gh-actions` calls it, compiles the core, the metrics, the rules and the driver
for the documentation, which was not asked for, and the reporters not: the parts have different classes
`RuleBase`. -/
theorem C121_witness : ∃ (root here : Str) (a : BuildArgs), ProjectRoot root ∧ a.docgen = false ∧
    (buildParser root).parse ["-no-ninja".toList] = .parsed a ∧
    exitStatus (docGenScript fineShell finePosix root ⟨here, []⟩).1 = 0 ∧
    exitStatus (buildScript fineShell root a ⟨here, []⟩).1 = 0 ∧
    ∀ clang apple m, ForDocumentation clang apple (afterDocGen root here a (workDir root [] m)) ↔
      m ≠ .reporters := by
  refine ⟨"/o".toList, "/o/oclint-scripts".toList,
    { llvmRoot := "/o/build/llvm-install".toList, noNinja := true }, ?_, rfl, ?_, ?_, ?_, ?_⟩
  · unfold ProjectRoot
    decide +kernel
  · rfl
  · decide +kernel
  · decide +kernel
  · intro clang apple m
    rw [docgen_flag]
    cases m <;> decide +kernel

/-- With `-clean` it does not. -/
example : ∀ clang apple m, ¬ ForDocumentation clang apple (afterDocGen "/o".toList "/o/oclint-scripts".toList
    { llvmRoot := "/o/build/llvm-install".toList, noNinja := true, clean := true }
      (workDir "/o".toList [] m)) := by
  intro clang apple m
  rw [docgen_flag]
  cases m <;> decide +kernel

/-- What the theorems assume of machines is true of this one. -/
example (caches : Str → CmakeCache) : Ordinary fineShell ∧ InDirectories fineShell caches :=
  ⟨fun _ _ _ => ⟨show (-256 : Int) < 0 by decide, show (0 : Int) < 256 by decide⟩, fun _ _ _ _ => rfl⟩

/-- An optimized build stays one: `build -release` and then `build`. -/
example : Optimized true false (cachesAfter (cachesAfter (fun _ _ => none)
    (buildScript fineShell "/o".toList { llvmRoot := "/l".toList, release := true } ⟨"/".toList, []⟩).2.events)
    (buildScript fineShell "/o".toList { llvmRoot := "/l".toList } ⟨"/".toList, []⟩).2.events
      (workDir "/o".toList [] .driver)) := by
  rw [optimized_flag]
  decide +kernel

/-! ## The directories of tests and checks -/

theorem after_none {caches : Str → CmakeCache} {d k : Str} (events : List ScriptEvent)
    (hc : caches d k = none)
    (h : ∀ x ∈ commandsOf events, x.1.1 = d → ∀ c : CmakeCache, c k = none → c.run x.1.2 k = none) :
    cachesAfter caches events d k = none := by
  induction events generalizing caches with
  | nil => exact hc
  | cons e events ih =>
    refine ih (caches := cacheStep caches e) ?_ fun x hx => h x ?_
    · cases e with
      | ran cwd command code =>
        show (if d = cwd then (caches d).run command else caches d) k = none
        split
        · rename_i hcwd
          exact h ((cwd, command), code) (by simp [commandsOf]) hcwd.symm _ hc
        · exact hc
      | did a =>
        cases a with
        | remove dir =>
          show (if d = dir ∨ _ then fun _ => none else caches d : CmakeCache) k = none
          split
          · rfl
          · exact hc
        | _ => exact hc
      | setEnv n v => exact hc
    · have : commandsOf (e :: events) = commandsOf [e] ++ commandsOf events := commandsOf_append [e] events
      rw [this]
      exact List.mem_append_right _ hx

theorem runOf_mem {solid : Prop} {plan : List Planned} {log : List (Planned × Int)} {code : Int}
    (h : RunOf solid plan log code) : ∀ x ∈ log, x.1 ∈ plan := by
  have pm : ∀ (l : List Planned), ∀ x ∈ passed l, x.1 ∈ l := by
    intro l x hx
    obtain ⟨y, hy, rfl⟩ := List.mem_map.1 hx
    exact hy
  intro x hx
  cases h with
  | finished => exact pm _ x hx
  | failed before step after _ h1 _ =>
    subst h1
    rcases List.mem_append.1 hx with hx | hx
    · exact List.mem_append_left _ (pm _ x hx)
    · rw [List.mem_singleton.1 hx]
      simp
  | broken before after _ h1 =>
    subst h1
    exact List.mem_append_left _ (pm _ x hx)
  | unread before step after _ _ h1 _ =>
    subst h1
    rcases List.mem_append.1 hx with hx | hx
    · exact List.mem_append_left _ (pm _ x hx)
    · rw [List.mem_singleton.1 hx]
      simp

/-- A step that runs nothing. -/
def QuietStep : ScriptStep → Prop
  | .act _ => True
  | .compiler _ => True
  | _ => False

theorem doAction_quiet {sh : Shell} (a : FileAction) (s : ScriptState) :
    commandsOf (doAction sh a s).2.events = commandsOf s.events := by
  unfold doAction
  split
  · simp only [commandsOf_append]
    simp [commandsOf]
  · rfl

theorem carryOut_quiet {sh : Shell} : ∀ (xs : List ScriptStep) (s : ScriptState), (∀ x ∈ xs, QuietStep x) →
    commandsOf (carryOut sh xs s).2.events = commandsOf s.events
  | [], _, _ => rfl
  | x :: xs, s, h => by
    have hx : commandsOf (doStep sh s x).2.events = commandsOf s.events := by
      have := h x List.mem_cons_self
      cases x with
      | act a => exact doAction_quiet a s
      | compiler r =>
        simp only [doStep, commandsOf_append]
        split <;> simp [commandsOf]
      | run _ => exact absurd this id
      | runAndShow _ _ => exact absurd this id
      | clear _ => exact absurd this id
      | ensure _ => exact absurd this id
    rw [carryOut]
    rcases hd : doStep sh s x with ⟨r, u⟩
    rw [hd] at hx
    cases r with
    | none => exact (carryOut_quiet xs u fun y hy => h y (List.mem_cons_of_mem _ hy)).trans hx
    | some e => exact hx

/-- Options that have no place in the directory with this suffix. -/
def strangeOptions : List (Str × Str) :=
  [([], "TEST_BUILD".toList), ("-test".toList, "DOC_GEN_BUILD".toList),
    ("-test".toList, "OCLINT_BUILD_TYPE".toList), ("-dogfooding".toList, "TEST_BUILD".toList),
    ("-dogfooding".toList, "DOC_GEN_BUILD".toList), ("-dogfooding".toList, "OCLINT_BUILD_TYPE".toList)]

theorem strange_suffix : ∀ p ∈ strangeOptions, p.1 ∈ [[], "-test".toList, "-dogfooding".toList] := by
  decide +kernel

theorem strange_build : ∀ p ∈ strangeOptions, [] = p.1 → p.2 = "TEST_BUILD".toList := by decide +kernel

theorem strange_test : ∀ p ∈ strangeOptions, "-test".toList = p.1 →
    p.2 = "DOC_GEN_BUILD".toList ∨ p.2 = "OCLINT_BUILD_TYPE".toList := by decide +kernel

theorem strange_dog : ∀ p ∈ strangeOptions, "-dogfooding".toList = p.1 →
    p.2 = "DOC_GEN_BUILD".toList ∨ p.2 = "OCLINT_BUILD_TYPE".toList ∨ p.2 = "TEST_BUILD".toList := by
  decide +kernel

theorem build_none {root : Str} (hr : ProjectRoot root) (h1 : ' ' ∉ root) {sh : Shell} {here : Str}
    {a : BuildArgs} (h2 : ' ' ∉ a.llvmRoot) {p : Str × Str} (hp : p ∈ strangeOptions) (m : OclintModule) :
    ∀ x ∈ commandsOf (buildScript sh root a ⟨here, []⟩).2.events, x.1.1 = workDir root p.1 m →
      ∀ c : CmakeCache, c p.2 = none → c.run x.1.2 p.2 = none := by
  obtain ⟨⟨code, hrun, -⟩, -⟩ := C108_build sh root here hr a
  intro x hx hcwd c hc
  have hmem := runOf_mem hrun x hx
  obtain ⟨m', -, hm'⟩ := List.mem_flatMap.1 hmem
  have hsuf := strange_suffix p hp
  simp only [List.mem_cons, List.not_mem_nil, or_false] at hm'
  rcases hm' with e | e
  · rw [e] at hcwd ⊢
    have hs := ((C108_directories root [] p.1 m' m (by simp) hsuf).1 hcwd).1
    rw [run_build hr h1 h2, putAll_other]
    · exact hc
    · have hk := strange_build p hp hs
      rw [hk]
      unfold askedFor
      rw [List.map_append, List.mem_append, asked_keys, not_or, List.map_append, List.mem_append, not_or]
      refine ⟨⟨?_, ?_⟩, ?_⟩
      · cases a.release <;> decide +kernel
      · cases a.docgen <;> decide +kernel
      · cases m' <;> decide +kernel
  · rw [e, run_other (builder_head _ _ _)]
    exact hc

theorem run_ctest (root : Str) (m : OclintModule) (c : CmakeCache) : c.run (ctest root m).2 = c := by
  unfold CmakeCache.run
  refine if_neg ?_
  rw [List.isPrefixOf_iff_prefix]
  rintro ⟨t, ht⟩
  have e : (ctest root m).2 = 'c' :: 't' :: (unwords ["est".toList, "--output-on-failure".toList, ">".toList,
      workDir root "-test".toList m ++ "/testresults.txt".toList]) := rfl
  rw [e] at ht
  simp at ht

theorem test_keys (root : Str) (a : TestArgs) (m : OclintModule) :
    "DOC_GEN_BUILD".toList ∉ (cmakeDefinitions (testWords root a m)).map (·.1) ∧
      "OCLINT_BUILD_TYPE".toList ∉ (cmakeDefinitions (testWords root a m)).map (·.1) := by
  rw [definitions_test]
  have e : ((needs m).flatMap (placesAt root "-test".toList)).map (·.1) =
      ((needs m).flatMap (placesAt [] [])).map (·.1) := by cases m <;> rfl
  rw [List.map_append, List.map_cons, List.map_cons, List.map_cons, e]
  dsimp only
  generalize a.asDep = b
  revert b
  cases m <;> decide +kernel

theorem dog_keys (root : Str) (a : DogArgs) (m : OclintModule) :
    "DOC_GEN_BUILD".toList ∉ (cmakeDefinitions (dogWords root a m)).map (·.1) ∧
      "OCLINT_BUILD_TYPE".toList ∉ (cmakeDefinitions (dogWords root a m)).map (·.1) ∧
      "TEST_BUILD".toList ∉ (cmakeDefinitions (dogWords root a m)).map (·.1) := by
  rw [definitions_dog]
  have e : ((needs m).flatMap (placesAt root [])).map (·.1) =
      ((needs m).flatMap (placesAt [] [])).map (·.1) := by cases m <;> rfl
  rw [List.map_cons, List.map_cons, e]
  dsimp only
  cases m <;> decide +kernel

theorem test_none {root : Str} (hr : ProjectRoot root) (h1 : ' ' ∉ root) {sh : Shell} {here : Str}
    {a : TestArgs} (h2 : ' ' ∉ a.llvmRoot) {p : Str × Str} (hp : p ∈ strangeOptions) (m : OclintModule) :
    ∀ x ∈ commandsOf (testScript sh root a ⟨here, []⟩).2.events, x.1.1 = workDir root p.1 m →
      ∀ c : CmakeCache, c p.2 = none → c.run x.1.2 p.2 = none := by
  intro x hx hcwd c hc
  cases hshow : a.showResults with
  | true =>
    have hst := C108_test_steps sh root here hr a
    have e : (testScript sh root a ⟨here, []⟩).2 =
        (carryOut sh (testSteps sh.cpuCount sh.tempDir root here a) ⟨here, []⟩).2 := by rw [← hst]
    rw [e, carryOut_quiet] at hx
    · simp [commandsOf] at hx
    · intro y hy
      unfold testSteps at hy
      rw [hshow, if_pos rfl] at hy
      rcases List.mem_append.1 hy with hy | hy
      · split at hy
        · rw [List.mem_singleton.1 hy]
          trivial
        · exact absurd hy List.not_mem_nil
      · obtain ⟨m', -, rfl⟩ := List.mem_map.1 hy
        trivial
  | false =>
    obtain ⟨⟨code, hrun, -⟩, -⟩ := C108_test sh root here hr a hshow
    obtain ⟨m', -, hm'⟩ := List.mem_flatMap.1 (runOf_mem hrun x hx)
    have hsuf := strange_suffix p hp
    rcases List.mem_append.1 hm' with hm' | hm'
    · simp only [List.mem_cons, List.not_mem_nil, or_false] at hm'
      rcases hm' with e | e
      · rw [e] at hcwd ⊢
        have hs := ((C108_directories root "-test".toList p.1 m' m (by simp) hsuf).1 hcwd).1
        rw [run_test h1 h2, putAll_other]
        · exact hc
        · have hk := strange_test p hp hs
          rcases hk with hk | hk
          · rw [hk]
            exact (test_keys root a m').1
          · rw [hk]
            exact (test_keys root a m').2
      · rw [e, run_other (builder_head _ _ _)]
        exact hc
    · split at hm'
      · exact absurd hm' List.not_mem_nil
      · rw [List.mem_singleton.1 hm', run_ctest]
        exact hc

theorem dog_none {root : Str} (hr : ProjectRoot root) (h1 : ' ' ∉ root) {sh : Shell} {here : Str}
    {a : DogArgs} (h2 : ' ' ∉ a.llvmRoot) {p : Str × Str} (hp : p ∈ strangeOptions) (m : OclintModule) :
    ∀ x ∈ commandsOf (dogScript sh root a ⟨here, []⟩).2.events, x.1.1 = workDir root p.1 m →
      ∀ c : CmakeCache, c p.2 = none → c.run x.1.2 p.2 = none := by
  intro x hx hcwd c hc
  cases hshow : a.showResults with
  | true =>
    have hst := C108_dogfooding_steps sh root here hr a
    have e : (dogScript sh root a ⟨here, []⟩).2 =
        (carryOut sh (dogSteps root here a) ⟨here, []⟩).2 := by rw [← hst]
    rw [e, carryOut_quiet] at hx
    · simp [commandsOf] at hx
    · intro y hy
      unfold dogSteps at hy
      rw [hshow, if_pos rfl] at hy
      rcases List.mem_append.1 hy with hy | hy
      · split at hy
        · rw [List.mem_singleton.1 hy]
          trivial
        · exact absurd hy List.not_mem_nil
      · obtain ⟨m', -, rfl⟩ := List.mem_map.1 hy
        trivial
  | false =>
    obtain ⟨⟨code, hrun, -⟩, -⟩ := C108_dogfooding sh root here hr a hshow
    obtain ⟨m', -, hm'⟩ := List.mem_flatMap.1 (runOf_mem hrun x hx)
    have hsuf := strange_suffix p hp
    simp only [List.mem_cons, List.not_mem_nil, or_false] at hm'
    rcases hm' with e | e
    · rw [e] at hcwd ⊢
      have hs := ((C108_directories root "-dogfooding".toList p.1 m' m (by simp) hsuf).1 hcwd).1
      rw [run_dog h1 h2, putAll_other]
      · exact hc
      · have hk := strange_dog p hp hs
        rcases hk with hk | hk | hk
        · rw [hk]
          exact (dog_keys root a m').1
        · rw [hk]
          exact (dog_keys root a m').2.1
        · rw [hk]
          exact (dog_keys root a m').2.2
    · rw [e] at hcwd
      exfalso
      have hcwd' : sourceDir root m' = workDir root p.1 m := hcwd
      unfold sourceDir workDir at hcwd'
      simp only [List.append_assoc, List.append_cancel_left_eq] at hcwd'
      have h2 := congrArg (fun l => (l.drop 1).head?) hcwd'
      exact absurd (show some 'o' = some 'b' from h2) (by decide)

/-- **C121.** Whatever was built, tested and checked before, with whatever options and however it ended: what
is remembered for `build` never has CMake set up tests instead of plug-ins, and what is tested or checked is
never compiled for the documentation nor optimized. -/
theorem C121_apart (root : Str) (hr : ProjectRoot root) (h1 : ' ' ∉ root) (before caches : Str → CmakeCache)
    (hb : ∀ d k, before d k = none) (h : Remembered root before caches) (m : OclintModule) :
    cmakeTrue (caches (workDir root [] m) "TEST_BUILD".toList) = false ∧
    cmakeTrue (caches (workDir root "-dogfooding".toList m) "TEST_BUILD".toList) = false ∧
    ∀ s ∈ ["-test".toList, "-dogfooding".toList], ∀ clang apple,
      ¬ ForDocumentation clang apple (caches (workDir root s m)) ∧
      ¬ Optimized clang apple (caches (workDir root s m)) := by
  have key : ∀ p ∈ strangeOptions, caches (workDir root p.1 m) p.2 = none := by
    induction h with
    | start => exact fun p _ => hb _ _
    | call caches events _ hrun ih =>
      intro p hp
      refine after_none events (ih p hp) ?_
      cases hrun with
      | build sh here a h2 => exact build_none hr h1 h2 hp m
      | test sh here a h2 => exact test_none hr h1 h2 hp m
      | dogFooding sh here a h2 => exact dog_none hr h1 h2 hp m
  simp only [strangeOptions, List.forall_mem_cons] at key
  obtain ⟨k1, k2, k3, k4, k5, k6, -⟩ := key
  refine ⟨by rw [k1]; rfl, by rw [k4]; rfl, ?_⟩
  simp only [List.forall_mem_cons, docgen_flag, optimized_flag]
  refine ⟨fun _ _ => ⟨by rw [k2]; decide, by rw [k3]; decide +kernel⟩,
    fun _ _ => ⟨by rw [k5]; decide, by rw [k6]; decide +kernel⟩, by simp⟩

/-- The tests of a part are set up after `test`; in the directory of `build` nothing is remembered. -/
example : cmakeTrue (cachesAfter (fun _ _ => none)
      (testScript fineShell "/o".toList { llvmRoot := "/l".toList } ⟨"/".toList, []⟩).2.events
        (workDir "/o".toList "-test".toList .rules) "TEST_BUILD".toList) = true ∧
    cachesAfter (fun _ _ => none)
      (testScript fineShell "/o".toList { llvmRoot := "/l".toList } ⟨"/".toList, []⟩).2.events
        (workDir "/o".toList [] .rules) "LLVM_ROOT".toList = none := by
  decide +kernel

end Oclint
