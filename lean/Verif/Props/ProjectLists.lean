import Verif.Lemmas.ProjectLists
import Verif.Props.CmakeCache
import Verif.Lemmas.CMake

/-!
# C122: which libraries and programs are built

From the lists of the repository CMake builds every source once: into a library, or into the programs; the
plug-ins exactly when it does not build the tests; and the program for the documentation exactly when it was
asked for.
-/

namespace Oclint
open Spec

/-! ## The lists of the repository -/

/-- **C122.** From the lists of the repository CMake builds, of each part, its libraries with every source in
`lib` once, the program `oclint`, and with `DOC_GEN_BUILD` also `oclint-docgen`; and it goes on to the tests
with `TEST_BUILD`, to the plug-ins without. -/
theorem C122_built (depth : Nat) (hd : 3 ≤ depth) (d : Disk) (dir : Str) (m : OclintModule)
    (h : AsInRepository d dir m) (cache : CmakeCache) :
    ∃ r, configureProject depth d dir cache = some r ∧
      BuildsAll m (cmakeTrue (cache "DOC_GEN_BUILD".toList)) r.targets ∧
      r.others = if cmakeTrue (cache "TEST_BUILD".toList) then ["test".toList] else pluginDirs m := by
  have hn : ∀ m : OclintModule, ∀ b, ((libraries m) ++ (programs m b).map (·.name)).Nodup := by
    intro m b
    cases m <;> cases b <;> decide +kernel
  refine ⟨_, project_parts depth hd d dir m h cache _ (repository_parts m _ _), ⟨⟨libsOf m, rfl,
    (repository_libs m).1, (repository_libs m).2⟩, ?_⟩, rfl⟩
  rw [List.map_append, (repository_libs m).1]
  exact hn m _

/-- **C122.** Every source of a part is in something that is built; only `main_docgen.cpp` is for the
documentation alone. -/
theorem C122_nothing_left (m : OclintModule) (documentation : Bool) (targets : List BuildTarget)
    (h : BuildsAll m documentation targets) (f : Str) (hf : f ∈ ownSources m) :
    (∃ t ∈ targets, f ∈ t.sources) ↔ (documentation = true ∨ f ≠ "main_docgen.cpp".toList) := by
  obtain ⟨⟨libs, rfl, -, hp⟩, -⟩ := h
  have hm : (∃ t ∈ libs ++ programs m documentation, f ∈ t.sources) ↔
      (f ∈ (ownSources m).filter (fun f => "lib/".toList.isPrefixOf f) ∨
        f ∈ (programs m documentation).flatMap (·.sources)) := by
    rw [← hp.mem_iff]
    simp only [List.mem_append, List.mem_flatMap, or_and_right, exists_or]
  rw [hm]
  have key : ∀ m : OclintModule, ∀ b : Bool, ∀ f ∈ ownSources m,
      (f ∈ (ownSources m).filter (fun f => "lib/".toList.isPrefixOf f) ∨
        f ∈ (programs m b).flatMap (·.sources)) ↔ (b = true ∨ f ≠ "main_docgen.cpp".toList) := by
    intro m b
    cases m <;> cases b <;> decide +kernel
  exact key m documentation f hf

/-- **C122.** Whatever the lists are, no two targets that CMake is to build have the same name. -/
theorem C122_names (depth : Nat) (d : Disk) (dir : Str) (cache : CmakeCache) (r : ProjectParts)
    (h : configureProject depth d dir cache = some r) : (r.targets.map (·.name)).Nodup :=
  readProject_nodup depth _ _ ⟨[], [], [], []⟩ _ List.nodup_nil h

/-! ## With the scripts -/

/-- **C122.** Whatever scripts were called before, where nothing had been built: in the directories of `build`
CMake goes on to the plug-ins, never to the tests. -/
theorem C122_plugins (root : Str) (hr : ProjectRoot root) (h1 : ' ' ∉ root) (before caches : Str → CmakeCache)
    (hb : ∀ d k, before d k = none) (hc : Remembered root before caches) (depth : Nat) (hd : 3 ≤ depth)
    (d : Disk) (m : OclintModule) (h : AsInRepository d (sourceDir root m) m) :
    ∃ r, configureProject depth d (sourceDir root m) (caches (workDir root [] m)) = some r ∧
      r.others = pluginDirs m := by
  obtain ⟨r, e, -, ho⟩ := C122_built depth hd d _ m h (caches (workDir root [] m))
  refine ⟨r, e, ?_⟩
  rw [ho, (C121_apart root hr h1 before caches hb hc m).1]
  rfl

/-- **C122.** After a call of `build` with `-clean` that succeeds there is a program for the documentation
exactly if the call asked for it. -/
theorem C122_docgen (sh : Shell) (ho : Ordinary sh) (root here : Str) (hr : ProjectRoot root)
    (a : BuildArgs) (h1 : ' ' ∉ root) (h2 : ' ' ∉ a.llvmRoot) (caches : Str → CmakeCache)
    (hd : InDirectories sh caches) (h : exitStatus (buildScript sh root a ⟨here, []⟩).1 = 0)
    (hc : a.clean = true) (hm : OclintModule.driver ∈ partsOf a.moduleName) (depth : Nat) (hdp : 3 ≤ depth)
    (d : Disk) (hrep : AsInRepository d (sourceDir root .driver) .driver) :
    ∃ r, configureProject depth d (sourceDir root .driver)
        (cachesAfter caches (buildScript sh root a ⟨here, []⟩).2.events (workDir root [] .driver)) = some r ∧
      ((∃ t ∈ r.targets, t.name = "oclint-docgen".toList) ↔ a.docgen = true) := by
  have hdoc := (C121_clean_partial sh ho root here hr a h1 h2 caches hd h hc .driver hm false false).1
  rw [docgen_flag] at hdoc
  obtain ⟨r, e, ⟨⟨libs, he, hl, -⟩, -⟩, -⟩ := C122_built depth hdp d _ .driver hrep
    (cachesAfter caches (buildScript sh root a ⟨here, []⟩).2.events (workDir root [] .driver))
  refine ⟨r, e, ?_⟩
  have key : (∃ t ∈ r.targets, t.name = "oclint-docgen".toList) ↔
      "oclint-docgen".toList ∈ r.targets.map (·.name) := by
    rw [List.mem_map]
  rw [key, he, List.map_append, hl, ← hdoc]
  generalize cmakeTrue _ = b
  revert b
  decide +kernel

/-! ## Linking -/

theorem cmExpand_var (vars : Str → Str) (name rest : Str) (hn : ∀ c ∈ name, c ≠ '}' ∧ c ≠ '$')
    (hr : '$' ∉ rest) :
    cmExpand vars none ('$' :: '{' :: (name ++ '}' :: rest)) = some (vars name ++ rest) := by
  have h1 : ∀ l : Str, '$' ∉ l → cmExpand vars none l = some l := by
    intro l hl
    induction l with
    | nil => rfl
    | cons c l ih =>
      rw [List.mem_cons, not_or] at hl
      rw [cmExpand.eq_def]
      simp only
      split
      · exact absurd rfl hl.1
      · rw [ih hl.2]
        rfl
  have h2 : ∀ l w : Str, (∀ c ∈ l, c ≠ '}' ∧ c ≠ '$') →
      cmExpand vars (some w) (l ++ '}' :: rest) = some (vars (w ++ l) ++ rest) := by
    intro l
    induction l with
    | nil =>
      intro w _
      rw [List.nil_append, cmExpand.eq_def]
      simp only [if_true]
      rw [h1 _ hr, List.append_nil]
      rfl
    | cons c l ih =>
      intro w hl
      have hc := hl c List.mem_cons_self
      rw [List.cons_append, cmExpand.eq_def]
      simp only [if_neg hc.1, if_neg hc.2]
      rw [ih (w ++ [c]) fun x hx => hl x (List.mem_cons_of_mem _ hx), List.append_assoc]
      rfl
  rw [cmExpand.eq_def]
  simp only
  exact h2 name [] hn

theorem argsOf_step {vars : Str → Str} {a : CmArg} {as : List CmArg} {x y : List Str}
    (h1 : cmArg vars a = some x) (h2 : cmArgsOf vars as = some y) : cmArgsOf vars (a :: as) = some (x ++ y) := by
  rw [cmArgsOf, h1, Option.bind_some, h2]
  rfl

theorem no_semicolon : ';' ∉ "/build/oclint-core".toList ∧ ';' ∉ "/build/oclint-metrics".toList := by
  decide +kernel

/-- The directories in which libraries are looked for are those of the parts that a part is built on. -/
theorem searched_needs (root : Str) (hs : ';' ∉ root) (m : OclintModule) (cache : CmakeCache)
    (hk : ∀ p ∈ (needs m).flatMap (partPlaces root), cache p.1 = some p.2) (r : ProjectParts)
    (hl : r.linkDirs = linkDirsOf m) :
    searchedDirs cache r = some ((needs m).map fun m' => workDir root [] m' ++ "/lib".toList) := by
  have one : ∀ name v : Str, (∀ c ∈ name, c ≠ '}' ∧ c ≠ '$') → cache name = some v → ';' ∉ v →
      cmArg (fun k => (cache k).getD []) ⟨'$' :: '{' :: (name ++ '}' :: chars! "/lib"), false⟩ =
        some [v ++ chars! "/lib"] := by
    intro name v hn hv hsv
    unfold cmArg
    simp only
    rw [cmExpand_var _ _ _ hn (by decide), hv]
    have : ∀ c ∈ v ++ chars! "/lib", c ≠ ';' := by
      intro c hc he
      subst he
      rcases List.mem_append.1 hc with h | h
      · exact hsv h
      · revert h
        decide
    simp only [Option.getD_some, Option.map_some, Bool.false_eq_true, if_false]
    rw [cmElements_plain _ this, if_neg (by simp)]
    rfl
  have sc : ';' ∉ root ++ "/build/oclint-core".toList := by
    rw [List.mem_append, not_or]
    exact ⟨hs, no_semicolon.1⟩
  have sm : ';' ∉ root ++ "/build/oclint-metrics".toList := by
    rw [List.mem_append, not_or]
    exact ⟨hs, no_semicolon.2⟩
  have wc : workDir root [] .core = root ++ "/build/oclint-core".toList := by
    unfold workDir
    rw [List.append_nil, List.append_assoc]
    rfl
  have wm : workDir root [] .metrics = root ++ "/build/oclint-metrics".toList := by
    unfold workDir
    rw [List.append_nil, List.append_assoc]
    rfl
  have oc := one (chars! "OCLINT_BUILD_DIR") (root ++ "/build/oclint-core".toList) (by decide)
  have om := one (chars! "OCLINT_METRICS_BUILD_DIR") (root ++ "/build/oclint-metrics".toList) (by decide)
  unfold searchedDirs
  rw [hl]
  cases m with
  | core => rfl
  | metrics => rfl
  | rules =>
    have e1 := oc (hk (_, _) (List.mem_cons_of_mem _ List.mem_cons_self)) sc
    have e2 := om (hk (_, _) (List.mem_cons_of_mem _ (List.mem_cons_of_mem _ (List.mem_cons_of_mem _
      List.mem_cons_self)))) sm
    simp only [needs, List.map_cons, List.map_nil, wc, wm]
    exact argsOf_step e1 (argsOf_step e2 rfl)
  | reporters =>
    have e1 := oc (hk (_, _) (List.mem_cons_of_mem _ List.mem_cons_self)) sc
    simp only [needs, List.map_cons, List.map_nil, wc]
    exact argsOf_step e1 rfl
  | driver =>
    have e1 := oc (hk (_, _) (List.mem_cons_of_mem _ List.mem_cons_self)) sc
    simp only [needs, List.map_cons, List.map_nil, wc]
    exact argsOf_step e1 rfl

theorem asked_places (root : Str) (a : BuildArgs) (m : OclintModule) :
    ∀ p ∈ (needs m).flatMap (partPlaces root), (askedFor root a m).lookup p.1 = some p.2 := by
  intro p hp
  have hin : p ∈ askedFor root a m := List.mem_append_right _ (List.mem_cons_of_mem _ hp)
  have := asked_nodup root a m
  generalize askedFor root a m = l at this hin
  clear hp
  induction l with
  | nil => cases hin
  | cons x l ih =>
    rw [List.map_cons, List.nodup_cons] at this
    obtain ⟨k, v⟩ := x
    rw [List.lookup_cons]
    rcases List.mem_cons.1 hin with rfl | hin'
    · simp
    · have hne : p.1 ≠ k := by
        rintro rfl
        exact this.1 (List.mem_map_of_mem (f := (·.1)) hin')
      rw [beq_false_of_ne hne]
      exact ih this.2 hin'

/-- **C122.** After a call of `build` that succeeds, with `-clean` or without: whatever of the project a
program of a part is linked with, is built by that part or is found where a part that it is built on writes
it; and every program is linked with the driver, the rule set and the core, in this order. -/
theorem C122_linked (sh : Shell) (ho : Ordinary sh) (root here : Str) (hr : ProjectRoot root)
    (a : BuildArgs) (h1 : ' ' ∉ root) (h2 : ' ' ∉ a.llvmRoot) (h3 : ';' ∉ root) (caches : Str → CmakeCache)
    (hd : InDirectories sh caches) (h : exitStatus (buildScript sh root a ⟨here, []⟩).1 = 0)
    (m : OclintModule) (hm : m ∈ partsOf a.moduleName) (depth : Nat) (hdp : 3 ≤ depth) (d : Disk)
    (hrep : ∀ m, AsInRepository d (sourceDir root m) m) :
    ∃ r others look, (∀ m', ((configureProject depth d (sourceDir root m')
        (cachesAfter caches (buildScript sh root a ⟨here, []⟩).2.events (workDir root [] m'))).map
          (·.targets)) = some (others m')) ∧
      configureProject depth d (sourceDir root m)
        (cachesAfter caches (buildScript sh root a ⟨here, []⟩).2.events (workDir root [] m)) = some r ∧
      searchedDirs (cachesAfter caches (buildScript sh root a ⟨here, []⟩).2.events (workDir root [] m)) r =
        some look ∧
      (∀ l ∈ r.links, ∀ lib ∈ l.2, OwnLibrary lib → Found root m r.targets others look lib) ∧
      ∀ t ∈ r.targets, t.name ∉ libraries m → ∃ libs, (t.name, libs) ∈ r.links ∧
        ["OCLintDriver".toList, "OCLintRuleSet".toList, "OCLintCore".toList].Sublist libs := by
  have hcache := C121_remembered sh ho root here hr a h1 h2 caches hd h m hm
  generalize cachesAfter caches (buildScript sh root a ⟨here, []⟩).2.events = after at hcache ⊢
  have hk : ∀ p ∈ (needs m).flatMap (partPlaces root), after (workDir root [] m) p.1 = some p.2 := by
    intro p hp
    rw [hcache, asked_places root a m p hp]
    rfl
  have hconf := fun m' => project_parts depth hdp d _ m' (hrep m') (after (workDir root [] m')) _
    (repository_parts m' _ _)
  refine ⟨_, fun m' => libsOf m' ++ programs m' (cmakeTrue (after (workDir root [] m')
    (chars! "DOC_GEN_BUILD"))), _, fun m' => ?_, hconf m, searched_needs root h3 m _ hk _ rfl, ?_, ?_⟩
  · rw [hconf m']
    rfl
  · intro l hl lib hlib hown
    rcases links_found m _ _ l hl lib hlib hown with hh | ⟨m', hm', t, ht, hn, hp⟩
    · obtain ⟨t, ht, hn⟩ := List.mem_map.1 hh
      exact .inl ⟨t, List.mem_append_left _ ht, hn⟩
    · refine .inr ⟨m', hm', t, List.mem_append_left _ ht, hn, ?_⟩
      rw [hp, List.map_map, List.mem_map]
      refine ⟨m', hm', ?_⟩
      show workDir root [] m' ++ "/lib".toList ++ "/".toList = workDir root [] m' ++ "/".toList ++ "lib/".toList
      rw [List.append_assoc, List.append_assoc]
      rfl
  · intro t ht hn
    obtain ⟨⟨x, libs⟩, hl, rfl, hsub⟩ := programs_linked m _ _ t ht hn
    exact ⟨libs, hl, hsub⟩

/-! ## Concrete cases -/

/-- A disk with a part as in the repository. -/
def partDisk (dir : Str) (m : OclintModule) : Disk :=
  ⟨fun p => if (dir ++ ['/']).isPrefixOf p then bareTree m (p.drop (dir.length + 1)) else none, fun _ => true⟩

/-- The driver, for the documentation. -/
example : (configureProject 3 (partDisk (chars! "/o/oclint-driver") .driver) (chars! "/o/oclint-driver")
    (fun k => if k = chars! "DOC_GEN_BUILD" then some (chars! "1") else none)).map
      (fun r => (r.targets.map (·.name), r.others)) =
    some ([chars! "OCLintDriver", chars! "oclint-26.02", chars! "oclint-docgen"], []) := by decide +kernel

/-- The rules, as `test` builds them. -/
example : (configureProject 3 (partDisk (chars! "/o/oclint-rules") .rules) (chars! "/o/oclint-rules")
    (fun k => if k = chars! "TEST_BUILD" then some (chars! "1") else none)).map
      (fun r => (r.targets.map (·.name), r.others)) =
    some ([chars! "OCLintHelper", chars! "OCLintUtil", chars! "OCLintAbstractRule"], [chars! "test"]) := by
  decide +kernel

/-- A source that is not there is an error. -/
example : configureProject 3 ⟨fun p => if p = chars! "/o/oclint-core/lib/RuleSet.cpp" then none else
      (partDisk (chars! "/o/oclint-core") .core).file p, fun _ => true⟩ (chars! "/o/oclint-core")
    (fun _ => none) = none := by decide +kernel

/-- The parts are as in the repository on some disk. -/
example : ∀ m : OclintModule, AsInRepository (partDisk (chars! "/o") m) (chars! "/o") m := by
  intro m
  unfold AsInRepository
  cases m <;> decide +kernel

end Oclint
