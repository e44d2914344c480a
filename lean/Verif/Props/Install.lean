import Verif.Lemmas.Install

/-!
# C99: where the program looks for its parts
-/

namespace Oclint
open Spec

/-- The directory that the program takes for its own is the one that the system started it from, for a
command with a slash and for one found in `PATH`, whatever the working directory. -/
theorem C99_directory_partial (w : Process) (runs : List Str → Prop) (cwd command : Str)
    (entries : List Str) (f : List Str) (hw : w.cwd = some cwd) (hc : cwd.head? = some '/')
    (hp : w.path = some (List.intercalate [':'] entries)) (h0 : entries ≠ [])
    (hcolon : ∀ e ∈ entries, ':' ∉ e)
    (hruns : ∀ p, w.canExecute p = true ↔ runs (reach cwd p))
    (hn : FileName (commandName command)) (hs : Starts runs cwd entries command f)
    (hempty : '/' ∈ command ∨ ∀ e ∈ entries, e ≠ []) :
    f = place (preserveExecutablePath w command) ++ [commandName command] := by
  unfold preserveExecutablePath installedPath
  cases hs with
  | named hslash =>
    rw [if_neg (by rw [fileName_eq_self]; simpa using hslash)]
    exact place_directory w cwd command hw hc hn
  | found before after entry hslash heq hb he =>
    have hne : ∀ e ∈ entries, e ≠ [] := hempty.resolve_left hslash
    have hname : commandName command = command := by rw [commandName_eq, (fileName_eq_self _).2 hslash]
    rw [hname] at hn
    have hfind : findProgramByName w command = some (appendPath entry command) := by
      unfold findProgramByName
      rw [if_neg hslash, hp]
      simp only
      rw [splitColons_entries entries h0 hcolon,
        List.filter_eq_self.2 (fun e h => by simpa using hne e h), heq]
      exact find_first w runs cwd command hruns hn before after entry (heq ▸ hne) hb he
    have hen : entry ≠ [] := hne entry (by rw [heq]; simp)
    rw [if_pos ((fileName_eq_self _).2 hslash), (fileName_eq_self _).2 hslash, hfind]
    have hcn : commandName (appendPath entry command) = command := by
      rw [commandName_appendPath _ _ hen, hname]
    have := place_directory w cwd (appendPath entry command) hw hc (by rw [hcn]; exact hn)
    rw [hcn, reach_appendPath cwd entry command hen, pieces_noSlash _ hn.noSlash, walk_name _ _ hn] at this
    rw [hname]
    exact this

/-- A command without a slash that no directory of `PATH` has is taken to be in the working
directory. -/
theorem C99_not_found (w : Process) (runs : List Str → Prop) (cwd command : Str)
    (entries : List Str) (hw : w.cwd = some cwd) (hc : cwd.head? = some '/')
    (hp : w.path = none ∨ w.path = some (List.intercalate [':'] entries)) (h0 : entries ≠ [])
    (hcolon : ∀ e ∈ entries, ':' ∉ e)
    (hruns : ∀ p, w.canExecute p = true ↔ runs (reach cwd p)) (hn : FileName command)
    (hnone : ∀ e ∈ entries, ¬ runs (reach cwd e ++ [command])) :
    place (preserveExecutablePath w command) = place cwd := by
  have hname : commandName command = command := by
    rw [commandName_eq, (fileName_eq_self _).2 hn.noSlash]
  have hfind : findProgramByName w command = none := by
    unfold findProgramByName
    rw [if_neg hn.noSlash]
    rcases hp with hp | hp
    · rw [hp]
    · rw [hp]
      simp only
      rw [splitColons_entries entries h0 hcolon, List.find?_eq_none]
      intro x hx
      obtain ⟨d, hd, rfl⟩ := List.mem_map.1 hx
      have hd' : d ∈ entries ∧ d ≠ [] := by simpa using hd
      rw [hruns, reach_appendPath cwd d command hd'.2, pieces_noSlash _ hn.noSlash, walk_name _ _ hn]
      exact hnone d hd'.1
  unfold preserveExecutablePath installedPath
  rw [if_pos ((fileName_eq_self _).2 hn.noSlash), (fileName_eq_self _).2 hn.noSlash, hfind,
    Option.getD_none]
  have := place_directory w cwd command hw hc (by rw [hname]; exact hn)
  have hr : reach cwd command = place cwd ++ [command] := by
    unfold reach
    rw [if_neg, pieces_noSlash _ hn.noSlash, walk_name _ _ hn]
    intro h
    exact hn.noSlash (List.mem_of_mem_head? h)
  rw [hr, hname] at this
  exact (List.append_inj_left' this rfl).symm

/-- The directory is absolute, so it keeps its meaning when the driver changes the working
directory. -/
theorem C99_absolute (w : Process) (cwd command : Str) (hw : w.cwd = some cwd)
    (hc : cwd.head? = some '/') :
    (preserveExecutablePath w command).head? = some '/' := by
  unfold preserveExecutablePath
  generalize installedPath w command = p
  have hh := head_makeAbsolute w cwd p hw hc
  obtain ⟨d, s, name, hp, -, -, -, hd⟩ := path_decomp _ (List.mem_of_mem_head? hh)
  rw [hd]
  cases d with
  | nil => simp [hh]
  | cons c cs =>
    rw [hp] at hh
    simpa using hh

/-- From the directory `bin` of an installation the rules are looked for in its `lib/oclint/rules`, the
reporters in `lib/oclint/reporters` and the first configuration file is its `etc/oclint`. -/
theorem C99_parts (e : Env) (st : OptionState) (h : st.argRulesPath = []) :
    (rulesPath e st).map place =
        [(place e.binPath).dropLast ++ ["lib".toList, "oclint".toList, "rules".toList]] ∧
      place (reporterPath e) =
        (place e.binPath).dropLast ++ ["lib".toList, "oclint".toList, "reporters".toList] ∧
      (configFilePaths e st).head?.map place =
        some ((place e.binPath).dropLast ++ ["etc".toList, "oclint".toList]) := by
  have lib : place e.libPath = (place e.binPath).dropLast ++ ["lib".toList] := by
    unfold Env.libPath Env.installPrefix
    rw [show "/lib".toList = '/' :: "lib".toList by decide +kernel, place_name _ _ fileName_lib, place_up]
  have etc : place e.etcPath = (place e.binPath).dropLast ++ ["etc".toList] := by
    unfold Env.etcPath Env.installPrefix
    rw [show "/etc".toList = '/' :: "etc".toList by decide +kernel, place_name _ _ fileName_etc, place_up]
  have under : ∀ name, FileName name → ∀ p, place (p ++ ("/oclint/".toList ++ name)) =
      place p ++ ["oclint".toList, name] := by
    intro name hname p
    have : p ++ ("/oclint/".toList ++ name) = (p ++ '/' :: "oclint".toList) ++ '/' :: name := by
      rw [show "/oclint/".toList = '/' :: ("oclint".toList ++ ['/']) by decide +kernel]
      simp
    rw [this, place_name _ _ hname, place_name _ _ fileName_oclint, List.append_assoc]
    rfl
  refine ⟨?_, ?_, ?_⟩
  · unfold rulesPath
    rw [h, if_neg (by simp), List.map_singleton,
      show "/oclint/rules".toList = "/oclint/".toList ++ "rules".toList by decide +kernel,
      under _ fileName_rules, lib, List.append_assoc]
    rfl
  · unfold reporterPath
    rw [show "/oclint/reporters".toList = "/oclint/".toList ++ "reporters".toList by decide +kernel,
      under _ fileName_reporters, lib, List.append_assoc]
    rfl
  · unfold configFilePaths
    rw [List.append_assoc, List.singleton_append, List.head?_cons, Option.map_some,
      show "/oclint".toList = '/' :: "oclint".toList by decide +kernel, place_name _ _ fileName_oclint, etc,
      List.append_assoc]
    rfl

/-- The bundle keeps its programs in `bin` and its rules and reporters below `lib/oclint`. -/
theorem C99_layout (bundle version devVersion p : Str) (isRelease : Bool) (hb : bundle ≠ [])
    (hv : '/' ∉ version) (hd : '/' ∉ devVersion) :
    (p ∈ bundlePrograms version devVersion bundle isRelease →
        ∃ name, place p = place bundle ++ ["bin".toList, name] ∧ commandName p = name ∧
          FileName name) ∧
      place (bundleRules bundle) = place bundle ++ ["lib".toList, "oclint".toList, "rules".toList] ∧
      place (bundleReporters bundle) =
        place bundle ++ ["lib".toList, "oclint".toList, "reporters".toList] := by
  have bin : bundleBinDir bundle ≠ [] := join_ne_nil _ _ hb fileName_bin
  have one : ∀ name, FileName name →
      ∃ n, place (osPathJoin (bundleBinDir bundle) name) = place bundle ++ ["bin".toList, n] ∧
        commandName (osPathJoin (bundleBinDir bundle) name) = n ∧ FileName n := by
    intro name hname
    refine ⟨name, ?_, ?_, hname⟩
    · rw [place_join _ _ bin hname, bundleBinDir, place_join _ _ hb fileName_bin, List.append_assoc]
      rfl
    · rw [osPathJoin_eq _ _ hname.head, commandName_appendPath _ _ bin, commandName_eq,
        (fileName_eq_self _).2 hname.noSlash]
  have lib : bundleLibDir bundle ≠ [] := join_ne_nil _ _ hb fileName_lib
  have libo : bundleLibOclintDir bundle ≠ [] := join_ne_nil _ _ lib fileName_oclint
  have plib : place (bundleLibOclintDir bundle) = place bundle ++ ["lib".toList, "oclint".toList] := by
    rw [bundleLibOclintDir, place_join _ _ lib fileName_oclint, bundleLibDir,
      place_join _ _ hb fileName_lib, List.append_assoc]
    rfl
  refine ⟨?_, ?_, ?_⟩
  · intro hp
    rw [bundlePrograms, List.mem_append, List.mem_cons, List.mem_singleton] at hp
    rcases hp with (hp | hp) | hp
    · rw [hp]
      exact one _ (fileName_version _ hv)
    · rw [hp]
      exact one _ fileName_oclint
    · cases isRelease with
      | true =>
        rw [if_pos rfl] at hp
        exact absurd hp (List.not_mem_nil)
      | false =>
        rw [if_neg (by decide), List.mem_singleton] at hp
        rw [hp]
        exact one _ (fileName_version _ hd)
  · rw [bundleRules, place_join _ _ libo fileName_rules, plib, List.append_assoc]
    rfl
  · rw [bundleReporters, place_join _ _ libo fileName_reporters, plib, List.append_assoc]
    rfl

/-- The names that are started in a bundle: `oclint`, `oclint-<version>` and, unless it is a release,
`oclint-<development version>`. -/
theorem C99_programs (bundle version devVersion : Str) (isRelease : Bool) (hb : bundle ≠ [])
    (hv : '/' ∉ version) (hd : '/' ∉ devVersion) (name : Str) :
    (∃ p ∈ bundlePrograms version devVersion bundle isRelease,
        place p = place bundle ++ ["bin".toList, name]) ↔
      name = "oclint".toList ∨ name = "oclint-".toList ++ version ∨
        (isRelease = false ∧ name = "oclint-".toList ++ devVersion) := by
  have bin : bundleBinDir bundle ≠ [] := join_ne_nil _ _ hb fileName_bin
  have one : ∀ n, FileName n →
      (place (osPathJoin (bundleBinDir bundle) n) = place bundle ++ ["bin".toList, name] ↔ name = n) := by
    intro n hn
    have : place (osPathJoin (bundleBinDir bundle) n) = place bundle ++ ["bin".toList, n] := by
      rw [place_join _ _ bin hn, bundleBinDir, place_join _ _ hb fileName_bin, List.append_assoc]
      rfl
    rw [this, List.append_cancel_left_eq]
    generalize "bin".toList = b
    constructor
    · intro h
      injection h with _ h
      injection h with h _
      exact h.symm
    · rintro rfl
      rfl
  have o1 := one _ (fileName_version _ hv)
  have o2 := one _ fileName_oclint
  have o3 := one _ (fileName_version _ hd)
  rw [bundlePrograms]
  revert o1 o2 o3
  generalize osPathJoin (bundleBinDir bundle) ("oclint-".toList ++ version) = a1
  generalize osPathJoin (bundleBinDir bundle) "oclint".toList = a2
  generalize osPathJoin (bundleBinDir bundle) ("oclint-".toList ++ devVersion) = a3
  generalize "oclint-".toList ++ version = n1
  generalize "oclint-".toList ++ devVersion = n3
  generalize "oclint".toList = n2
  generalize place bundle ++ ["bin".toList, name] = target
  intro o1 o2 o3
  cases isRelease
  · simp only [Bool.false_eq_true, if_false, List.cons_append, List.nil_append, List.mem_cons,
      List.not_mem_nil, or_false, true_and, exists_eq_or_imp, exists_eq_left]
    rw [o1, o2, o3]
    exact or_left_comm
  · simp only [if_true, List.append_nil, List.mem_cons, List.not_mem_nil, or_false, Bool.true_eq_false,
      false_and, exists_eq_or_imp, exists_eq_left]
    rw [o1, o2]
    exact or_comm

/-- The bundle is made in `build/oclint-release` and an archive is made from
`build/oclint-<full version>`. -/
theorem C99_where (rootDir version devVersion : Str) (isRelease : Bool) (hr : rootDir ≠ [])
    (hv : '/' ∉ version) (hd : '/' ∉ devVersion) :
    place (bundleRootDir rootDir) = place rootDir ++ ["build".toList, "oclint-release".toList] ∧
      place (archiveDir rootDir version devVersion isRelease) =
        place rootDir ++ ["build".toList,
          "oclint-".toList ++ (if isRelease then version else devVersion)] := by
  have build : buildRoot rootDir ≠ [] := join_ne_nil _ _ hr fileName_build
  have one : ∀ v, '/' ∉ v → place (oclintModuleBuildDir rootDir v) =
      place rootDir ++ ["build".toList, "oclint-".toList ++ v] := by
    intro v h
    rw [oclintModuleBuildDir, moduleBuildDir, place_join _ _ build (fileName_version _ h), buildRoot,
      place_join _ _ hr fileName_build, List.append_assoc]
    rfl
  constructor
  · rw [bundleRootDir, one _ (by decide +kernel),
      show "oclint-release".toList = "oclint-".toList ++ "release".toList by decide +kernel]
  · rw [archiveDir]
    cases isRelease
    · exact one _ hd
    · exact one _ hv

/-- A bundled program finds the rules and the reporters of its bundle, wherever the bundle was moved
to and however the program was started. -/
theorem C99_bundle_partial (w : Process) (runs : List Str → Prop) (cwd command : Str) (entries : List Str)
    (hw : w.cwd = some cwd) (hc : cwd.head? = some '/')
    (hp : w.path = some (List.intercalate [':'] entries)) (h0 : entries ≠ [])
    (hcolon : ∀ e ∈ entries, ':' ∉ e)
    (hruns : ∀ p, w.canExecute p = true ↔ runs (reach cwd p)) (hn : FileName (commandName command))
    (hempty : '/' ∈ command ∨ ∀ e ∈ entries, e ≠ []) (e : Env) (st : OptionState)
    (he : e.binPath = preserveExecutablePath w command) (hst : st.argRulesPath = [])
    (bundle version devVersion p : Str) (isRelease : Bool) (hb : bundle ≠ [])
    (hv : '/' ∉ version) (hd : '/' ∉ devVersion)
    (hmem : p ∈ bundlePrograms version devVersion bundle isRelease)
    (hs : Starts runs cwd entries command (place p)) :
    (rulesPath e st).map place = [place (bundleRules bundle)] ∧
      place (reporterPath e) = place (bundleReporters bundle) := by
  obtain ⟨hprog, hrules, hreporters⟩ := C99_layout bundle version devVersion p isRelease hb hv hd
  obtain ⟨name, hplace, -, -⟩ := hprog hmem
  have hdir := C99_directory_partial w runs cwd command entries _ hw hc hp h0 hcolon hruns hn hs hempty
  rw [hplace, ← he] at hdir
  have hbin : place bundle ++ ["bin".toList] = place e.binPath := by
    rw [show place bundle ++ ["bin".toList, name] = (place bundle ++ ["bin".toList]) ++ [name] by
      rw [List.append_assoc]; rfl] at hdir
    exact List.append_inj_left' hdir rfl
  have hup : (place e.binPath).dropLast = place bundle := by
    rw [← hbin]
    generalize "bin".toList = b
    simp
  obtain ⟨h1, h2, -⟩ := C99_parts e st hst
  rw [hup] at h1 h2
  exact ⟨h1.trans (by rw [hrules]), h2.trans hreporters.symm⟩

/-- The program looks beside the name it was started by.  If that name is a link to a program in
another installation, the rules of that installation are not the ones that are looked for. -/
theorem C99_link_witness (w : Process) (runs : List Str → Prop) (cwd command : Str)
    (entries : List Str) (f target : List Str) (hw : w.cwd = some cwd) (hc : cwd.head? = some '/')
    (hp : w.path = some (List.intercalate [':'] entries)) (h0 : entries ≠ [])
    (hcolon : ∀ e ∈ entries, ':' ∉ e)
    (hruns : ∀ p, w.canExecute p = true ↔ runs (reach cwd p)) (hn : FileName (commandName command))
    (hs : Starts runs cwd entries command f) (hempty : '/' ∈ command ∨ ∀ e ∈ entries, e ≠ [])
    (e : Env) (st : OptionState) (he : e.binPath = preserveExecutablePath w command)
    (hst : st.argRulesPath = []) (hlink : target.dropLast.dropLast ≠ f.dropLast.dropLast) :
    (rulesPath e st).map place = [f.dropLast.dropLast ++ ["lib".toList, "oclint".toList, "rules".toList]] ∧
      (rulesPath e st).map place ≠
        [target.dropLast.dropLast ++ ["lib".toList, "oclint".toList, "rules".toList]] := by
  have hdir := C99_directory_partial w runs cwd command entries _ hw hc hp h0 hcolon hruns hn hs hempty
  have hf : f.dropLast = place e.binPath := by rw [hdir, he, List.dropLast_concat]
  have h := (C99_parts e st hst).1
  rw [← hf] at h
  refine ⟨h, fun h' => hlink ?_⟩
  rw [h] at h'
  injection h' with h' _
  exact (List.append_cancel_right h').symm

/-- A process in `/opt/oclint/bin` with the given `PATH` and the programs `/opt/oclint/bin/oclint` and
`/usr/bin/oclint`. -/
def installExample (path : String) : Process :=
  { cwd := some "/opt/oclint/bin".toList
    path := some path.toList
    canExecute := fun p =>
      reach "/opt/oclint/bin".toList p = ["opt".toList, "oclint".toList, "bin".toList, "oclint".toList] ∨
        reach "/opt/oclint/bin".toList p = ["usr".toList, "bin".toList, "oclint".toList] }

/-- The programs of `installExample`. -/
def installRuns (p : List Str) : Prop :=
  p = ["opt".toList, "oclint".toList, "bin".toList, "oclint".toList] ∨
    p = ["usr".toList, "bin".toList, "oclint".toList]

/-- With an empty entry in `PATH`, which means the working directory to the system, the program can take
the directory of another program for its own. -/
theorem C99_empty_entry_witness :
    ∃ (w : Process) (runs : List Str → Prop) (cwd command : Str) (entries : List Str) (f : List Str),
      w.cwd = some cwd ∧ cwd.head? = some '/' ∧ w.path = some (List.intercalate [':'] entries) ∧
        entries ≠ [] ∧ (∀ e ∈ entries, ':' ∉ e) ∧
        (∀ p, w.canExecute p = true ↔ runs (reach cwd p)) ∧ FileName (commandName command) ∧
        Starts runs cwd entries command f ∧
        f ≠ place (preserveExecutablePath w command) ++ [commandName command] := by
  refine ⟨installExample ":/usr/bin", installRuns, "/opt/oclint/bin".toList, "oclint".toList,
    ["".toList, "/usr/bin".toList], ["opt".toList, "oclint".toList, "bin".toList, "oclint".toList],
    rfl, by decide +kernel, by decide +kernel, by decide +kernel, by decide +kernel, ?_, ?_, ?_, ?_⟩
  · intro p
    simp only [installExample, installRuns, decide_eq_true_eq]
  · constructor <;> decide +kernel
  · have h : reach "/opt/oclint/bin".toList "".toList ++ ["oclint".toList] =
        ["opt".toList, "oclint".toList, "bin".toList, "oclint".toList] := by decide +kernel
    rw [← h]
    refine Starts.found [] ["/usr/bin".toList] "".toList (by decide +kernel) rfl (by simp) ?_
    rw [h]
    exact Or.inl rfl
  · decide +kernel

example : preserveExecutablePath (installExample ":/usr/bin") "oclint".toList = "/usr/bin".toList := by
  decide +kernel

example : preserveExecutablePath (installExample "/usr/bin/") "oclint".toList = "/usr/bin".toList := by
  decide +kernel

example : preserveExecutablePath (installExample "../bin:/usr/bin") "oclint".toList =
    "/opt/oclint/bin/../bin".toList := by decide +kernel

example : preserveExecutablePath (installExample "/usr/bin") "./oclint".toList =
    "/opt/oclint/bin/.".toList := by decide +kernel

example : preserveExecutablePath (installExample "/bin") "oclint".toList = "/opt/oclint/bin".toList := by
  decide +kernel

example : preserveExecutablePath (installExample "/bin") "/oclint".toList = "/".toList := by decide +kernel

example : place "/opt/oclint/bin/../bin/../lib/oclint/rules".toList =
    place (bundleRules "/opt/oclint".toList) := by decide +kernel

example : bundlePrograms "26.02".toList "26.02.dev.1a2b3c4".toList "/b".toList false =
    ["/b/bin/oclint-26.02".toList, "/b/bin/oclint".toList, "/b/bin/oclint-26.02.dev.1a2b3c4".toList] := by
  decide +kernel

example : archiveDir "/src".toList "26.02".toList "26.02.dev.1a2b3c4".toList true =
    "/src/build/oclint-26.02".toList := by decide +kernel

end Oclint
