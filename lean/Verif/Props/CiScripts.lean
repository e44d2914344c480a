import Verif.Lemmas.CiScripts
import Verif.Props.BuildScripts
import Verif.Props.Argparse

/-!
# Scripts that call other scripts (C111)

`googleTest`, `docGen`, `make`, `makeWithSystemLLVM` and `gh-actions` on any machine, and the jobs that
test the project.
-/

namespace Oclint
open Spec

theorem ownLlvm_eq {root : Str} (hr : ProjectRoot root) : clangInstallDir root = ownLlvm root := by
  unfold clangInstallDir ownLlvm
  rw [moduleBuildDir_eq hr (by decide +kernel)]
  have : "/build/llvm-install".toList = "/build/".toList ++ "llvm-install".toList := by decide +kernel
  rw [this, List.append_assoc]

/-! ## Words -/

/-- A shell splits a value that is not in quotes at blanks. -/
theorem C111_fields (s : Str) (ws : List Str) : FieldsOf s ws ↔ shellFields s = ws := fieldsOf_iff s ws

example : FieldsOf " core  metrics".toList ["core".toList, "metrics".toList] := by
  rw [C111_fields]
  decide +kernel

/-! ## `googleTest` -/

/-- Everything `googleTest` does: it is fetched once, brought up to date only if it is there, and built in
the directory the tests look in. -/
theorem C111_googletest (sh : Shell) (root : Str) (hr : ProjectRoot root) (a : GtestArgs)
    (s : ScriptState) :
    (exitStatus (gtestScript sh root a s).1, (gtestScript sh root a s).2) = gtestRun sh root a s :=
  gtest_run hr a s

/-! ## Shell scripts -/

section
variable {sh : Shell} {px : PosixShell} {root : Str}

theorem runs_build (hr : ProjectRoot root) (f : Int) (a : BuildArgs) :
    Runs sh f (asProcess (buildScript sh root a)) [buildLine sh root a] :=
  runs_script fun s => does_exit (does_build hr a s.cwd) s.events

theorem runs_gtest (hr : ProjectRoot root) (f : Int) (t : GtestTask) :
    Runs sh f (startedWith (.parsed { task := t, llvmRoot := clangInstallDir root }) (gtestScript sh root))
      [gtestLine sh root t] := by
  rw [ownLlvm_eq hr]
  exact runs_script (gtest_run hr _)

/-- A script that is started with words. -/
theorem runs_started {α : Type} {f : Int} {p : α → Script Unit} {line : α → ShellLine}
    (h : ∀ a, Runs sh f (asProcess (p a)) [line a]) (words : ParseResult α) :
    Runs sh f (startedWith words p) [askedLine line words] := by
  cases words with
  | parsed a => exact h a
  | refused => exact runs_stop 2
  | helped => intro s rest; rfl

theorem runs_ci (hr : ProjectRoot root) (f : Int) (a : CiArgs) :
    Runs sh f (asProcess (ciScript sh root a)) [ciLine sh root a] :=
  runs_script fun s => ci_steps hr a s.cwd s.events

theorem runs_docGen (hr : ProjectRoot root) :
    Runs sh px.builtinCode (docGenScript sh px root) (docGenLines sh root) := by
  unfold docGenScript docGenBuild docGenLines
  simp only [(C120_calls root _).1]
  unfold startedWith
  rw [ownLlvm_eq hr]
  have hb := fun a => runs_build (sh := sh) hr px.builtinCode a
  simp only [List.map_cons, List.map_nil, List.cons_append, List.nil_append]
  refine runs_seq (P := [_]) (hb _) (runs_seq (P := [_]) (hb _) (runs_seq (P := [_]) (hb _)
    (runs_seq (P := [_]) (hb _) ?_)))
  exact runs_seq (runs_command _) (runs_seq (runs_command _) (runs_seq (runs_command _)
    (runs_seq (runs_goto px "../build/".toList (by decide +kernel)) (runs_command _))))

theorem plain_name {w : Str} {o : Option OclintModule} (h : NamesPart w o) : Plain w := by
  cases h <;> exact .inl (by decide +kernel)

theorem runs_test (hr : ProjectRoot root) (f : Int) (asDep : Bool) {w : Str} {line : ShellLine}
    (h : TestLine sh root asDep w line) : Runs sh f (ghTest sh root asDep w) [line] := by
  unfold ghTest
  cases h with
  | part h =>
    rw [C120_gh root asDep w (plain_name h), (moduleChoice_iff _ _).2 h, ownLlvm_eq hr]
    exact runs_script fun s => test_steps hr _ s.cwd s.events
  | unknown hp h =>
    rw [C120_gh root asDep w hp, (moduleChoice_none _).2 h]
    exact runs_stop 2
  | option _ => exact runs_started (fun a => runs_script fun s => test_steps hr a s.cwd s.events) _

theorem flatten_fields {deps : List Str} {words : List (List Str)}
    (h : List.Forall₂ FieldsOf deps words) : deps.flatMap shellFields = words.flatten := by
  induction h with
  | nil => rfl
  | cons h1 _ ih => rw [List.flatMap_cons, List.flatten_cons, fieldsOf_shellFields h1, ih]

theorem runs_prepare (hr : ProjectRoot root) (f : Int) :
    Runs sh f (ghPrepare sh root) (ghPrepareLines sh root) :=
  runs_seq (runs_command _) (runs_seq (runs_gtest hr f .checkout) (runs_gtest hr f .build))

end

/-- Everything `docGen` does. -/
theorem C111_docgen (sh : Shell) (px : PosixShell) (root : Str) (hr : ProjectRoot root)
    (s : ScriptState) :
    (exitStatus (docGenScript sh px root s).1, (docGenScript sh px root s).2) =
      inTurn sh px.builtinCode (docGenLines sh root) s :=
  runs_all (runs_docGen hr) s

/-- Everything `make` does: the old results are removed, and a release is built from the beginning; or
nothing, if its words are not understood or ask for help. -/
theorem C111_make (sh : Shell) (root : Str) (hr : ProjectRoot root) (ws : List Str)
    (lines : List ShellLine) (h : MakeLines sh root ws lines) (s : ScriptState) :
    (exitStatus (makeScript sh root ws s).1, (makeScript sh root ws s).2) = inTurn sh 0 lines s := by
  refine runs_all (f := 0) ?_ s
  unfold makeScript
  rw [(C120_make ws).1, (C120_make ws).2]
  cases h with
  | asked h => rw [h]; exact runs_seq (runs_ci hr 0 _) (runs_ci hr 0 _)
  | refused h => rw [h]; intro s rest; rfl
  | help h => rw [h]; exact runs_seq runs_skip runs_skip

/-- `MakeLines` says it for every command line. -/
theorem C111_make_total (sh : Shell) (root : Str) (ws : List Str) : ∃ lines, MakeLines sh root ws lines := by
  cases h : ciParser.parse ws with
  | parsed x => exact ⟨_, .asked h⟩
  | refused => exact ⟨_, .refused h⟩
  | helped => exact ⟨_, .help h⟩

/-- Everything `gh-actions` does, whatever it is called with. -/
theorem C111_gh_actions (sh : Shell) (px : PosixShell) (root : Str) (hr : ProjectRoot root)
    (args : List Str) (lines : List ShellLine) (h : GhLines sh px.builtinCode root args lines)
    (s : ScriptState) :
    (exitStatus (ghActionsScript sh px root args s).1, (ghActionsScript sh px root args s).2) =
      inTurn sh px.builtinCode lines s := by
  refine runs_all (f := px.builtinCode) ?_ s
  have hne : "docgen".toList ≠ "build".toList := by decide +kernel
  unfold ghActionsScript
  cases h with
  | build =>
    simp only [List.head?_cons]
    rw [if_pos True.intro, (C120_calls root .core).2.1, ownLlvm_eq hr]
    exact runs_seq (runs_command _) (runs_seq (runs_build hr _ _) (runs_command _))
  | docgen =>
    simp only [List.head?_cons]
    rw [if_neg (fun h => hne (Option.some.inj h)), if_pos True.intro]
    exact runs_seq (runs_command _) (runs_script fun s => runs_all (runs_docGen hr) s)
  | missing h1 h2 h3 =>
    match args, h1, h2, h3 with
    | [], _, _, _ =>
      rw [if_neg (by simp), if_neg (by simp)]
      exact runs_seq (runs_prepare hr _) (runs_stop _)
    | [w], _, h2, h3 =>
      rw [if_neg (c := List.head? [w] = _) (fun h => h2 (congrArg (fun w => [w]) (Option.some.inj h))),
        if_neg (c := List.head? [w] = _) (fun h => h3 (congrArg (fun w => [w]) (Option.some.inj h)))]
      exact runs_seq (runs_prepare hr _) (runs_stop _)
    | _ :: _ :: _, h1, _, _ =>
      simp only [List.length_cons] at h1
      omega
  | test h1 h2 h3 h4 h5 =>
    rw [if_neg (c := List.head? (_ :: _ :: _) = _) (fun h => h1 (Option.some.inj h)),
      if_neg (c := List.head? (_ :: _ :: _) = _) (fun h => h2 (Option.some.inj h)),
      List.append_assoc]
    refine runs_seq (runs_prepare hr _) (runs_seq ?_ (runs_test hr _ _ h5))
    rw [flatten_fields h3]
    exact runs_each (h4.imp fun _ _ h => runs_test hr _ _ h)

theorem testLine_total (sh : Shell) (root : Str) (asDep : Bool) (w : Str) :
    ∃ line, TestLine sh root asDep w line := by
  cases h : moduleChoice w with
  | none =>
    by_cases hp : Plain w
    · exact ⟨_, .unknown hp ((moduleChoice_none w).1 h)⟩
    · exact ⟨_, .option hp⟩
  | some o => exact ⟨_, .part ((moduleChoice_iff w o).1 h)⟩

theorem forall₂_total {α β : Type} {R : α → β → Prop} (h : ∀ a, ∃ b, R a b) :
    ∀ as : List α, ∃ bs, List.Forall₂ R as bs
  | [] => ⟨[], .nil⟩
  | a :: as => by
    obtain ⟨b, hb⟩ := h a
    obtain ⟨bs, hbs⟩ := forall₂_total h as
    exact ⟨b :: bs, .cons hb hbs⟩

/-- `GhLines` says it for every command line. -/
theorem C111_gh_actions_total (sh : Shell) (f : Int) (root : Str) (args : List Str) :
    ∃ lines, GhLines sh f root args lines := by
  by_cases hb : args.head? = some "build".toList
  · obtain ⟨rest, rfl⟩ : ∃ rest, args = "build".toList :: rest := by
      generalize "build".toList = w at hb
      cases args with
      | nil => simp at hb
      | cons a rest => exact ⟨rest, by simp at hb; rw [hb]⟩
    exact ⟨_, .build⟩
  · by_cases hd : args.head? = some "docgen".toList
    · obtain ⟨rest, rfl⟩ : ∃ rest, args = "docgen".toList :: rest := by
        generalize "docgen".toList = w at hd
        cases args with
        | nil => simp at hd
        | cons a rest => exact ⟨rest, by simp at hd; rw [hd]⟩
      exact ⟨_, .docgen⟩
    · match args, hb, hd with
      | [], _, _ => exact ⟨_, .missing (by simp) (by simp) (by simp)⟩
      | [w], hb, hd =>
        refine ⟨_, .missing (by simp) ?_ ?_⟩
        · intro h; rw [h] at hb; exact hb rfl
        · intro h; rw [h] at hd; exact hd rfl
      | what :: name :: deps, hb, hd =>
        obtain ⟨words, hw⟩ := forall₂_total (fun s => fieldsOf_total s.length s (Nat.le_refl _)) deps
        obtain ⟨dl, hdl⟩ := forall₂_total (testLine_total sh root true) words.flatten
        obtain ⟨line, hl⟩ := testLine_total sh root false name
        refine ⟨_, .test ?_ ?_ hw hdl hl⟩
        · intro h; rw [h] at hb; exact hb rfl
        · intro h; rw [h] at hd; exact hd rfl

/-! ## `makeWithSystemLLVM` -/

/-- Without exactly one argument it ends with status 1 and does nothing. -/
theorem C111_system_llvm_refused (sh : Shell) (px : PosixShell) (root : Str) (args : List Str)
    (h : args.length ≠ 1) (s : ScriptState) :
    exitStatus (systemLlvmScript sh px root args s).1 = 1 ∧
      (systemLlvmScript sh px root args s).2 = s := by
  match args, h with
  | [], _ => exact ⟨rfl, rfl⟩
  | _ :: _ :: _, _ => exact ⟨rfl, rfl⟩

theorem testNoSize_iff (px : PosixShell) (ev : List ScriptEvent) (ws : List Str) :
    testNoSize px ev ws = true ↔ Refuses px ev ws := by
  match ws with
  | [] =>
    refine ⟨by simp [testNoSize], fun h => ?_⟩
    cases h with
    | odd h1 _ => simp at h1
  | [p] =>
    refine ⟨fun h => .one (by simpa [testNoSize] using h), fun h => ?_⟩
    cases h with
    | one h => simp [testNoSize, h]
    | odd h1 _ => simp at h1
  | p :: q :: ws =>
    refine ⟨fun h => .odd (by simp) h, fun h => ?_⟩
    cases h with
    | odd _ h => exact h

theorem systemBuild_runs {sh : Shell} {root : Str} (hr : ProjectRoot root) {ws : List Str}
    {line : ShellLine} (h : SystemBuild sh root ws line) (f : Int) :
    Runs sh f (startedWith ((buildParser root).parse (ws ++ ["-release".toList, "-clean".toList]))
      (buildScript sh root)) [line] := by
  have hd : ∀ r : Str, ("-llvm-root=".toList ++ r).drop "-llvm-root=".toList.length = r :=
    fun r => List.drop_left
  have e1 : ∀ w : Str, systemBuildArgs [w] = some
      { release := true, clean := true, llvmRoot := w.drop "-llvm-root=".toList.length } := fun _ => rfl
  have e2 : ∀ w m : Str, systemBuildArgs [w, m] = (moduleChoice m).map fun o =>
      { moduleName := o, release := true, clean := true,
        llvmRoot := w.drop "-llvm-root=".toList.length } := fun _ _ => rfl
  cases h with
  | everything r =>
    rw [system_words root r [] (by simp), e1, hd]
    exact runs_build hr f _
  | @part r m o hm =>
    rw [system_words root r [m] (by simpa using plain_name hm), e2, hd, (moduleChoice_iff m o).2 hm]
    exact runs_build hr f _
  | @unknown r m hp hm =>
    rw [system_words root r [m] (by simpa using hp), e2, (moduleChoice_none m).2 hm]
    exact runs_stop 2
  | @many r ws h2 hp =>
    rw [system_words root r ws hp]
    match ws, h2 with
    | _ :: _ :: _, _ => exact runs_stop 2
  | option r _ => exact runs_started (fun a => runs_build hr f a) _

/-- With one argument: it ends with status 2 and does nothing if `test` says that nothing is at the words
of the path, and else builds with what `build` makes of the words of `-llvm-root=` and the path, and then
calls `bundle`. -/
theorem C111_system_llvm (sh : Shell) (px : PosixShell) (root : Str) (hr : ProjectRoot root) (path : Str)
    (ws vs : List Str) (line : ShellLine) (hw : FieldsOf path ws)
    (hv : FieldsOf ("-llvm-root=".toList ++ path) vs) (hl : SystemBuild sh root vs line)
    (s : ScriptState) :
    (Refuses px s.events ws → exitStatus (systemLlvmScript sh px root [path] s).1 = 2 ∧
      (systemLlvmScript sh px root [path] s).2 = s) ∧
    (¬ Refuses px s.events ws →
      (exitStatus (systemLlvmScript sh px root [path] s).1, (systemLlvmScript sh px root [path] s).2) =
        inTurn sh 0 [line, .command ("./bundle -llvm-root=".toList ++ path ++ " -release".toList)] s) := by
  have e : systemLlvmScript sh px root [path] s = if testNoSize px s.events ws = true then Script.exit 2 s
      else (startedWith ((buildParser root).parse (vs ++ ["-release".toList, "-clean".toList]))
          (buildScript sh root) ;;
        shellCall sh ("./bundle -llvm-root=".toList ++ path ++ " -release".toList)) s := by
    rw [← fieldsOf_shellFields hw, ← fieldsOf_shellFields hv]
    rfl
  rw [e]
  constructor
  · intro h
    rw [if_pos ((testNoSize_iff px s.events ws).2 h)]
    exact ⟨rfl, rfl⟩
  · intro h
    rw [if_neg fun hc => h ((testNoSize_iff px s.events ws).1 hc)]
    exact runs_all (runs_seq (systemBuild_runs hr hl 0) (runs_command _)) s

/-- `SystemBuild` says it for every path. -/
theorem C111_system_llvm_total (sh : Shell) (root path : Str) :
    ∃ ws vs line, FieldsOf path ws ∧ FieldsOf ("-llvm-root=".toList ++ path) vs ∧
      SystemBuild sh root vs line := by
  obtain ⟨ws, hw⟩ := fieldsOf_total path.length path (Nat.le_refl _)
  obtain ⟨r, vs, hv⟩ := shellFields_prefix (w := "-llvm-root=".toList) (by simp) (by decide +kernel) path
  have hf := (fieldsOf_iff _ _).2 hv
  by_cases hp : ∀ w ∈ vs, Plain w
  · match vs, hf, hp with
    | [], hf, _ => exact ⟨_, _, _, hw, hf, .everything r⟩
    | [m], hf, hp =>
      cases h : moduleChoice m with
      | none => exact ⟨_, _, _, hw, hf, .unknown r (hp m (by simp)) ((moduleChoice_none m).1 h)⟩
      | some o => exact ⟨_, _, _, hw, hf, .part r ((moduleChoice_iff m o).1 h)⟩
    | _ :: _ :: _, hf, hp => exact ⟨_, _, _, hw, hf, .many r (by simp) hp⟩
  · exact ⟨_, _, _, hw, hf, .option r (by simpa using hp)⟩

/-- If the path has no blanks and is not empty, the script refuses a path at which there is nothing, and
otherwise builds everything with the LLVM there and makes a release of it.  Missing are other paths. -/
theorem C111_system_llvm_partial (sh : Shell) (px : PosixShell) (root : Str) (hr : ProjectRoot root)
    (path : Str) (hp : path ≠ []) (h1 : ' ' ∉ path) (h2 : '\t' ∉ path) (h3 : '\n' ∉ path)
    (s : ScriptState) :
    (exitStatus (systemLlvmScript sh px root [path] s).1, (systemLlvmScript sh px root [path] s).2) =
      if px.hasSize s.events path = true then
        inTurn sh 0 [buildLine sh root { release := true, clean := true, llvmRoot := path },
          .command (unwords ["./bundle".toList, "-llvm-root=".toList ++ path, "-release".toList])] s
      else (2, s) := by
  have hw : FieldsOf path [path] := .last hp h1 h2 h3
  have hv : FieldsOf ("-llvm-root=".toList ++ path) ["-llvm-root=".toList ++ path] := by
    have l1 : ' ' ∉ "-llvm-root=".toList := by decide +kernel
    have l2 : '\t' ∉ "-llvm-root=".toList := by decide +kernel
    have l3 : '\n' ∉ "-llvm-root=".toList := by decide +kernel
    refine .last (by simp [hp]) ?_ ?_ ?_
    · rw [List.mem_append, not_or]; exact ⟨l1, h1⟩
    · rw [List.mem_append, not_or]; exact ⟨l2, h2⟩
    · rw [List.mem_append, not_or]; exact ⟨l3, h3⟩
  obtain ⟨k1, k2⟩ := C111_system_llvm sh px root hr path _ _ _ hw hv (.everything path) s
  have e : unwords ["./bundle".toList, "-llvm-root=".toList ++ path, "-release".toList] =
      "./bundle -llvm-root=".toList ++ path ++ " -release".toList := by
    have e1 : "./bundle -llvm-root=".toList = "./bundle".toList ++ ' ' :: "-llvm-root=".toList := by
      decide +kernel
    have e2 : " -release".toList = ' ' :: "-release".toList := by decide +kernel
    rw [e1, e2]
    show "./bundle".toList ++ ' ' :: ("-llvm-root=".toList ++ path ++ ' ' :: "-release".toList) = _
    simp only [List.append_assoc, List.cons_append]
  rw [e]
  by_cases h : px.hasSize s.events path = true
  · rw [if_pos h]
    refine k2 fun hc => ?_
    cases hc with
    | one hc => rw [h] at hc; cases hc
    | odd hc _ => simp at hc
  · rw [if_neg h]
    obtain ⟨k3, k4⟩ := k1 (.one (by simpa using h))
    rw [k3, k4]

/-! ## The jobs that test the project -/

section
variable {sh : Shell}

/-- If the part of a shell script does not fail, it has run the commands of the plan and they succeeded. -/
def Meets (sh : Shell) (p : Script Unit) (c : Str) (plan : List Planned) : Prop :=
  ∀ ev, (∀ x ∈ commandsOf ev, -256 < x.2 ∧ x.2 < 256) → exitStatus (p ⟨c, ev⟩).1 = 0 →
    (p ⟨c, ev⟩).1 = .ok () ∧ (p ⟨c, ev⟩).2.cwd = c ∧
      commandsOf (p ⟨c, ev⟩).2.events = commandsOf ev ++ passed plan

theorem passed_ordinary {ev : List (Planned × Int)} {plan : List Planned}
    (h : ∀ x ∈ ev, -256 < x.2 ∧ x.2 < 256) : ∀ x ∈ ev ++ passed plan, -256 < x.2 ∧ x.2 < 256 := by
  intro x hx
  rcases List.mem_append.1 hx with hx | hx
  · exact h x hx
  · obtain ⟨y, -, rfl⟩ := List.mem_map.1 hx
    simp

theorem meets_seq {p q : Script Unit} {c : Str} {P Q : List Planned} (hp : Meets sh p c P)
    (hq : Meets sh q c Q) : Meets sh (p ;; q) c (P ++ Q) := by
  intro ev hev h
  have hp := hp ev hev
  unfold Script.seq Script.andThen at h ⊢
  cases hr : p ⟨c, ev⟩ with
  | mk r s =>
    rw [hr] at hp h
    cases r with
    | error e => exact absurd (hp h).1 (by simp)
    | ok u =>
      obtain ⟨-, h2, h3⟩ := hp rfl
      simp only at h h2 h3 ⊢
      cases s with
      | mk c' ev' =>
        simp only at h2 h3
        subst h2
        obtain ⟨k1, k2, k3⟩ := hq ev' (by rw [h3]; exact passed_ordinary hev) h
        refine ⟨k1, k2, ?_⟩
        rw [k3, h3, passed_append, List.append_assoc]

theorem meets_each {α : Type} {g : α → Script Unit} {c : Str} {plan : α → List Planned} :
    ∀ as : List α, (∀ a ∈ as, Meets sh (g a) c (plan a)) →
      Meets sh (Script.each as g) c (as.flatMap plan)
  | [], _ => fun ev _ _ => ⟨rfl, rfl, by simp [Script.each, Script.skip, passed]⟩
  | a :: as, h => by
    rw [List.flatMap_cons]
    exact meets_seq (h a List.mem_cons_self) (meets_each as fun b hb => h b (List.mem_cons_of_mem _ hb))

theorem meets_command (hu : Usual sh) (cmd c : Str) : Meets sh (shellCall sh cmd) c [(c, cmd)] := by
  intro ev _ h
  unfold shellCall subprocessCall Script.andThen Script.when at h ⊢
  simp only at h ⊢
  by_cases h0 : sh.run ev c cmd = 0
  · simp only [h0, ne_eq, not_true, decide_false, Bool.false_eq_true, if_false]
    refine ⟨rfl, rfl, ?_⟩
    show commandsOf (ev ++ [.ran c cmd 0]) = _
    rw [commandsOf_append]
    rfl
  · simp only [ne_eq, h0, not_false_eq_true, decide_true, if_true] at h
    have hb := hu ev c cmd
    have : shellStatus (sh.run ev c cmd) % 256 = 0 := h
    unfold shellStatus at this
    split at this <;> omega

/-- The same of a script that is started. -/
def Succeeds (sh : Shell) (p : Script Unit) (c : Str) (plan : List Planned) : Prop :=
  ∀ ev, (∀ x ∈ commandsOf ev, -256 < x.2 ∧ x.2 < 256) → exitStatus (p ⟨c, ev⟩).1 = 0 →
    commandsOf (p ⟨c, ev⟩).2.events = commandsOf ev ++ passed plan

theorem meets_process {p : Script Unit} {c : Str} {plan : List Planned} (h : Succeeds sh p c plan) :
    Meets sh (asProcess p) c plan := by
  intro ev hev h0
  unfold asProcess at h0 ⊢
  simp only at h0 ⊢
  by_cases hs : exitStatus (p ⟨c, ev⟩).1 = 0
  · rw [if_pos hs]
    exact ⟨rfl, rfl, h ev hev hs⟩
  · rw [if_neg hs] at h0
    have : exitStatus (p ⟨c, ev⟩).1 % 256 = 0 := h0
    rw [exitStatus_mod] at this
    exact absurd this hs

theorem usual_ordinary (hu : Usual sh) : Ordinary sh := fun ev c cmd => by
  have := hu ev c cmd
  omega

theorem succeeds_follows (hu : Usual sh) {A : FileAction → Prop} {p : Script Unit} {c c' : Str}
    {plan : List Planned} (hf : Follows sh A p c c' plan)
    (hd : ∀ ev, ∃ steps, (exitStatus (p ⟨c, ev⟩).1, (p ⟨c, ev⟩).2) = carryOut sh steps ⟨c, ev⟩) :
    Succeeds sh p c plan := by
  intro ev hev h0
  obtain ⟨new, h1, -, h3⟩ := hf ev
  rw [h1, commandsOf_append]
  obtain ⟨steps, hs⟩ := hd ev
  have hord : ∀ x ∈ commandsOf new, -256 < x.2 ∧ x.2 < 256 := by
    intro x hx
    have e : (p ⟨c, ev⟩).2 = (carryOut sh steps ⟨c, ev⟩).2 := by rw [← hs]
    refine carryOut_ordinary (usual_ordinary hu) steps ⟨c, ev⟩ hev x ?_
    rw [← e, h1, commandsOf_append]
    exact List.mem_append_right _ hx
  rcases h3 with ⟨-, -, e3⟩ | ⟨e, e1, e2⟩
  · rw [e3]
  · rw [e1] at h0
    rw [code_ordinary e2.runOf hord h0]

theorem succeeds_test (hu : Usual sh) {root : Str} (hr : ProjectRoot root) (a : TestArgs)
    (ha : a.showResults = false) (c : Str) :
    Succeeds sh (testScript sh root a) c (testPlan sh.cpuCount root a (partsOf a.moduleName)) :=
  succeeds_follows hu (follows_test hr a ha c) fun ev => ⟨_, test_steps hr a c ev⟩

theorem succeeds_checkout (hu : Usual sh) {root : Str} (hr : ProjectRoot root) (r c : Str) :
    Succeeds sh (gtestScript sh root { task := .checkout, llvmRoot := r }) c [(root, gtestClone)] := by
  intro ev hev h0
  have hclone : "git clone ".toList ++ "https://github.com/google/googletest.git".toList
      ++ " googletest".toList = gtestClone := by decide +kernel
  have e : gtestScript sh root { task := .checkout, llvmRoot := r } ⟨c, ev⟩ =
      gtestCheckout sh root ⟨c, ev⟩ := rfl
  rw [e] at h0 ⊢
  unfold gtestCheckout at h0 ⊢
  rw [hclone] at h0 ⊢
  simp only at h0 ⊢
  by_cases h : sh.isDir ev (googletestDir root) = true
  · rw [if_pos h] at h0
    have h1 : (1 : Int) % 256 = 0 := h0
    exact absurd h1 (by decide)
  · rw [if_neg h] at h0 ⊢
    exact succeeds_follows hu (A := fun _ => True)
      (follows_returning (follows_seq (follows_enter root c trivial) (follows_call gtestClone root)) trivial)
      (fun ev => ⟨_, does_exit (does_returning (does_seq (does_enter root c) (does_call gtestClone root))) ev⟩)
      ev hev h0

theorem succeeds_gtestBuild (hu : Usual sh) {root : Str} (hr : ProjectRoot root) (r c : Str) :
    Succeeds sh (gtestScript sh root { task := .build, llvmRoot := r }) c
      [(gtestDir root, unwords (gtestWords sh.isDarwin root)), (gtestDir root, builder sh.cpuCount true 0)] := by
  intro ev hev h0
  have e : gtestScript sh root { task := .build, llvmRoot := r } ⟨c, ev⟩ =
      gtestBuild sh root 0 ⟨c, ev⟩ := rfl
  rw [e] at h0 ⊢
  unfold gtestBuild at h0 ⊢
  rw [(googletest_eq hr).2, processMake_eq, gtestCommand_eq hr] at h0 ⊢
  exact succeeds_follows hu (A := fun _ => True)
    (follows_returning (follows_seq (follows_mkdirP _ c trivial) (follows_seq (follows_enter _ c trivial)
      (follows_seq (follows_call _ _) (follows_call _ _)))) trivial)
    (fun ev => ⟨_, does_exit (does_returning (does_seq (does_mkdirP _ c) (does_seq (does_enter _ c)
        (does_seq (does_call _ _) (does_call _ _))))) ev⟩) ev hev h0

theorem namesPart_name (m : OclintModule) : NamesPart m.name (some m) := by
  cases m
  · exact .core
  · exact .metrics
  · exact .rules
  · exact .reporters
  · exact .driver

theorem meets_test (hu : Usual sh) {root : Str} (hr : ProjectRoot root) (asDep : Bool) (m : OclintModule)
    (c : Str) : Meets sh (ghTest sh root asDep m.name) c
      (testPlan sh.cpuCount root (ghTestArgs root asDep (some m)) [m]) := by
  unfold ghTest
  rw [C120_gh root asDep _ (plain_name (namesPart_name m)), (moduleChoice_iff _ _).2 (namesPart_name m),
    ownLlvm_eq hr]
  exact meets_process (succeeds_test hu hr (ghTestArgs root asDep (some m)) rfl c)

end

/-- If a job that tests a part ends with status 0, LLVM was set up, GoogleTest was fetched and built, the
parts it needs were built in order, and the part was built and its tests were run and passed. -/
theorem C111_tests_green (sh : Shell) (hu : Usual sh) (px : PosixShell) (root here : Str)
    (hr : ProjectRoot root) (what : Str) (hb : what ≠ "build".toList) (hd : what ≠ "docgen".toList)
    (m : OclintModule) (deps : List Str) (ds : List OclintModule) (words : List (List Str))
    (hw : List.Forall₂ FieldsOf deps words) (hds : words.flatten = ds.map OclintModule.name)
    (h : exitStatus (ghActionsScript sh px root (what :: m.name :: deps) ⟨here, []⟩).1 = 0) :
    commandsOf (ghActionsScript sh px root (what :: m.name :: deps) ⟨here, []⟩).2.events =
      passed (ghTestPlan sh root here ds m) := by
  have key : Meets sh (ghActionsScript sh px root (what :: m.name :: deps)) here
      (ghTestPlan sh root here ds m) := by
    unfold ghActionsScript ghTestPlan
    generalize "docgen".toList = dg at hd ⊢
    generalize "build".toList = bd at hb ⊢
    rw [if_neg (by simpa using hb), if_neg (by simpa using hd), List.append_assoc]
    refine meets_seq ?_ (meets_seq ?_ (meets_test hu hr false m here))
    · exact meets_seq (P := [_]) (meets_command hu _ here)
        (meets_seq (P := [_]) (meets_process (succeeds_checkout hu hr _ here))
          (meets_process (succeeds_gtestBuild hu hr _ here)))
    · rw [flatten_fields hw, hds]
      have hm := meets_each (sh := sh) (g := fun d : OclintModule => ghTest sh root true d.name) (c := here)
        (plan := fun d => testPlan sh.cpuCount root (ghTestArgs root true (some d)) [d]) ds
        fun d _ => meets_test hu hr true d here
      have he : ∀ l : List OclintModule, Script.each (l.map OclintModule.name) (ghTest sh root true) =
          Script.each l fun d => ghTest sh root true d.name := by
        intro l
        induction l with
        | nil => rfl
        | cons d l ih =>
          show ghTest sh root true d.name ;; Script.each (l.map OclintModule.name) _ = _
          rw [ih]
          rfl
      rw [he]
      exact hm
  have := (key [] (by simp [commandsOf]) h).2.2
  rwa [show commandsOf [] = [] from rfl, List.nil_append] at this

/-- There is one job for every part, and it is called with the part and exactly what the part is built on,
in an order in which it can be built. -/
theorem C111_workflow :
    workflowModules.Nodup ∧ (workflowDeps.map Prod.fst).Nodup ∧
    (∀ name, name ∈ workflowModules ↔ ∃ m : OclintModule, name = m.name) ∧
    (∀ name, name ∈ workflowDeps.map Prod.fst ↔ name ∈ workflowModules) ∧
    ∀ (m : OclintModule) (deps : Str), (m.name, deps) ∈ workflowDeps →
      workflowTestArgs m.name deps = "test".toList :: m.name :: (needs m).map OclintModule.name := by
  have hmods : workflowModules = oclintModules.map OclintModule.name := by decide +kernel
  have hdeps : workflowDeps.map Prod.fst = workflowModules := by decide +kernel
  refine ⟨by decide +kernel, by decide +kernel, ?_, ?_, ?_⟩
  · intro name
    rw [hmods, List.mem_map]
    constructor
    · rintro ⟨m, -, rfl⟩
      exact ⟨m, rfl⟩
    · rintro ⟨m, rfl⟩
      exact ⟨m, by cases m <;> decide, rfl⟩
  · intro name
    rw [hdeps]
  · have key : ∀ m : OclintModule, ∀ x ∈ workflowDeps, x.1 = m.name →
        workflowTestArgs m.name x.2 = "test".toList :: m.name :: (needs m).map OclintModule.name := by
      intro m
      cases m <;> decide +kernel
    intro m deps h
    exact key m _ h rfl

/-- If the job of a part ends with status 0, the tests of the part were run, last of all, and passed, and
everything it is built on was built before. -/
theorem C111_workflow_green (sh : Shell) (hu : Usual sh) (px : PosixShell) (root here : Str)
    (hr : ProjectRoot root) (m : OclintModule) (deps : Str) (hm : (m.name, deps) ∈ workflowDeps)
    (h : exitStatus (ghActionsScript sh px root (workflowTestArgs m.name deps) ⟨here, []⟩).1 = 0) :
    commandsOf (ghActionsScript sh px root (workflowTestArgs m.name deps) ⟨here, []⟩).2.events =
      passed (ghTestPlan sh root here (needs m) m) ∧
    (commandsOf (ghActionsScript sh px root (workflowTestArgs m.name deps) ⟨here, []⟩).2.events).getLast? =
      some (ctest root m, 0) := by
  have e := C111_workflow.2.2.2.2 m deps hm
  rw [e] at h ⊢
  have hw : List.Forall₂ FieldsOf ((needs m).map OclintModule.name)
      ((needs m).map fun d => [d.name]) := by
    rw [List.forall₂_map_left_iff, List.forall₂_map_right_iff, List.forall₂_same]
    intro d _
    rw [fieldsOf_iff]
    cases d <;> decide +kernel
  have hfl : ((needs m).map fun d => [d.name]).flatten = (needs m).map OclintModule.name := by
    rw [← List.flatMap_def, List.map_eq_flatMap]
  have key := C111_tests_green sh hu px root here hr "test".toList (by decide +kernel) (by decide +kernel)
    m _ (needs m) _ hw hfl h
  refine ⟨key, ?_⟩
  rw [key]
  have : ghTestPlan sh root here (needs m) m = ([(here, "./clang".toList), (root, gtestClone),
      (gtestDir root, unwords (gtestWords sh.isDarwin root)), (gtestDir root, builder sh.cpuCount true 0)]
      ++ (needs m).flatMap (fun d => testPlan sh.cpuCount root (ghTestArgs root true (some d)) [d])
      ++ [(workDir root "-test".toList m, unwords (testWords root (ghTestArgs root false (some m)) m)),
        (workDir root "-test".toList m, builder sh.cpuCount true 0)]) ++ [ctest root m] := by
    unfold ghTestPlan
    rw [List.append_assoc _ [_, _] [ctest root m]]
    rfl
  rw [this, passed_append, List.getLast?_append]
  rfl

/-- A second run on the same machine fails: if GoogleTest is there already, `gh-actions` ends with status 1
after setting up LLVM, and no part is built or tested. -/
theorem C111_second_run (sh : Shell) (px : PosixShell) (root here : Str) (hr : ProjectRoot root)
    (args : List Str) (hb : args.head? ≠ some "build".toList) (hd : args.head? ≠ some "docgen".toList)
    (h0 : sh.run [] here "./clang".toList = 0)
    (hg : sh.isDir [.ran here "./clang".toList 0] (gtestSources root) = true) :
    exitStatus (ghActionsScript sh px root args ⟨here, []⟩).1 = 1 ∧
      (ghActionsScript sh px root args ⟨here, []⟩).2 = ⟨here, [.ran here "./clang".toList 0]⟩ := by
  unfold ghActionsScript
  rw [if_neg hb, if_neg hd]
  have e1 : shellCall sh "./clang".toList ⟨here, []⟩ = (.ok (), ⟨here, [.ran here "./clang".toList 0]⟩) := by
    unfold shellCall subprocessCall Script.andThen Script.when
    simp only [h0]
    rfl
  have e2 : startedWith ((gtestParser root).parse ["co".toList]) (gtestScript sh root)
      ⟨here, [.ran here "./clang".toList 0]⟩ = (.error 1, ⟨here, [.ran here "./clang".toList 0]⟩) := by
    have : gtestScript sh root { task := .checkout, llvmRoot := clangInstallDir root }
        ⟨here, [.ran here "./clang".toList 0]⟩ = (.error 1, ⟨here, [.ran here "./clang".toList 0]⟩) := by
      show gtestCheckout sh root ⟨here, [.ran here "./clang".toList 0]⟩ = _
      unfold gtestCheckout
      rw [(googletest_eq hr).1]
      exact if_pos hg
    rw [(C120_calls root .core).2.2.1]
    show asProcess (gtestScript sh root { task := .checkout, llvmRoot := clangInstallDir root }) _ = _
    unfold asProcess
    rw [this]
    rfl
  have e3 : ghPrepare sh root ⟨here, []⟩ = (.error 1, ⟨here, [.ran here "./clang".toList 0]⟩) := by
    unfold ghPrepare Script.seq Script.andThen
    simp only [e1, e2]
  generalize "./clang".toList = w at e3
  unfold Script.seq Script.andThen
  rw [e3]
  exact ⟨rfl, rfl⟩

/-- The tests are told to look for GoogleTest where it is built. -/
theorem C111_gtest_found (sh : Shell) (root here : Str) (hr : ProjectRoot root) (j : Int) (r : Str)
    (c cmd : Str) (code : Int)
    (h : .ran c cmd code ∈ (gtestScript sh root { task := .build, j := j, llvmRoot := r } ⟨here, []⟩).2.events)
    (a : TestArgs) (m : OclintModule) :
    "GOOGLETEST_BUILD=".toList ++ c ∈ testWords root a m := by
  have e : gtestScript sh root { task := .build, j := j, llvmRoot := r } ⟨here, []⟩ =
      gtestBuild sh root j ⟨here, []⟩ := rfl
  rw [e] at h
  unfold gtestBuild at h
  rw [(googletest_eq hr).2, processMake_eq, gtestCommand_eq hr] at h
  have hf := (follows_returning (sh := sh) (A := fun _ => True) (follows_seq
    (follows_mkdirP (root ++ "/build/googletest/lib".toList) here trivial)
    (follows_seq (follows_enter (root ++ "/build/googletest/lib".toList) here trivial)
      (follows_seq (follows_call (unwords (gtestWords sh.isDarwin root)) _)
        (follows_call (builder sh.cpuCount true j) _)))) trivial).run.1
  obtain ⟨code', hc, -⟩ := hf
  have hin : ((c, cmd), code) ∈ commandsOf (returning sh
      (pathMkdirP sh (root ++ "/build/googletest/lib".toList) ;;
        perform sh (.enter (root ++ "/build/googletest/lib".toList)) ;;
        processCall sh (unwords (gtestWords sh.isDarwin root)) ;;
        processCall sh (builder sh.cpuCount true j)) ⟨here, []⟩).2.events :=
    List.mem_filterMap.2 ⟨_, h, rfl⟩
  have hcd : c = root ++ "/build/googletest/lib".toList := by
    have hmem : ∀ {plan : List Planned} {log : List (Planned × Int)} {k : Int},
        RunOf (Solid sh) plan log k → ∀ x ∈ log, x.1 ∈ plan := by
      intro plan log k hk x hx
      have hp : ∀ (l : List Planned), x ∈ passed l → x.1 ∈ l := by
        intro l hx
        obtain ⟨y, hy, rfl⟩ := List.mem_map.1 hx
        exact hy
      cases hk with
      | finished => exact hp _ hx
      | failed before step after _ h1 h2 =>
        rw [h1]
        rcases List.mem_append.1 hx with hx | hx
        · exact List.mem_append_left _ (hp _ hx)
        · rw [List.mem_singleton.1 hx]
          simp
      | broken before after h1 h2 =>
        rw [h2]
        exact List.mem_append_left _ (hp _ hx)
      | unread before step after c h1 h2 h3 =>
        rw [h2]
        rcases List.mem_append.1 hx with hx | hx
        · exact List.mem_append_left _ (hp _ hx)
        · rw [List.mem_singleton.1 hx]
          simp
    have := hmem hc _ hin
    simp only [List.nil_append, List.mem_append, List.mem_singleton, Prod.mk.injEq] at this
    rcases this with ⟨h, -⟩ | ⟨h, -⟩ <;> exact h
  rw [hcd]
  unfold testWords
  refine List.mem_append_left _ (List.mem_append_left _ (List.mem_append_right _ ?_))
  unfold define
  have e1 : "GOOGLETEST_BUILD=".toList = "GOOGLETEST_BUILD".toList ++ ['='] := by decide +kernel
  rw [e1, List.append_assoc]
  exact List.mem_cons_of_mem _ (List.mem_singleton.2 rfl)

/-! ## Examples -/

/-- A shell of the usual kind; only `/opt/llvm` has a size, and `test` fails with more than one word. -/
def exPosix : PosixShell where
  builtinCode := 1
  hasSize _ p := decide (p = "/opt/llvm".toList)
  testOdd _ _ := false

example : Usual exShell := by
  intro ev c cmd
  unfold exShell
  simp only
  split <;> omega

/-- An empty argument, and one with a blank, pass the check for a directory that is there: everything is
built with an LLVM in no directory, or only the part that is named by the second word, with an LLVM that
was not looked for. -/
theorem C111_system_llvm_witness :
    ∃ (sh : Shell) (px : PosixShell) (root here : Str), ProjectRoot root ∧
      px.hasSize [] [] = false ∧
      ((systemLlvmScript sh px root [[]] ⟨here, []⟩).2.events ≠ []) ∧
      px.hasSize [] "/nowhere core".toList = false ∧ px.hasSize [] "/nowhere".toList = false ∧
      (commandsOf (systemLlvmScript sh px root ["/nowhere core".toList] ⟨here, []⟩).2.events).head? =
        some (("/o/build/oclint-core".toList,
          "cmake -G Ninja -D OCLINT_BUILD_TYPE=Release -D LLVM_ROOT=/nowhere /o/oclint-core".toList), 0) := by
  refine ⟨exShell, exPosix, "/o".toList, "/o/oclint-scripts".toList, ?_, ?_, ?_, ?_, ?_, ?_⟩
  · unfold ProjectRoot
    decide +kernel
  · decide +kernel
  · decide +kernel
  · decide +kernel
  · decide +kernel
  · decide +kernel

/-- The job that tests the rules fails, since their tests do; the core and the metrics were built. -/
example :
    let r := ghActionsScript exShell exPosix "/o".toList
      (workflowTestArgs "rules".toList "core metrics".toList) ⟨"/o/oclint-scripts".toList, []⟩
    exitStatus r.1 = 8 ∧ (commandsOf r.2.events).length = 11 ∧
      (commandsOf r.2.events).getLast? = some (ctest "/o".toList .rules, 8) := by
  decide +kernel

/-- That of the reporters succeeds. -/
example :
    let r := ghActionsScript exShell exPosix "/o".toList
      (workflowTestArgs "reporters".toList "core".toList) ⟨"/o/oclint-scripts".toList, []⟩
    exitStatus r.1 = 0 ∧ (commandsOf r.2.events).map (·.1.1) =
      ["/o/oclint-scripts".toList, "/o".toList, "/o/build/googletest/lib".toList,
        "/o/build/googletest/lib".toList, "/o/build/oclint-core-test".toList,
        "/o/build/oclint-core-test".toList, "/o/build/oclint-reporters-test".toList,
        "/o/build/oclint-reporters-test".toList, "/o/build/oclint-reporters-test".toList] := by
  decide +kernel

example :
    let r := systemLlvmScript exShell exPosix "/o".toList ["/opt/llvm".toList] ⟨"/s".toList, []⟩
    exitStatus r.1 = 0 ∧ (commandsOf r.2.events).length = 11 ∧
      (commandsOf r.2.events).getLast? =
        some (("/s".toList, "./bundle -llvm-root=/opt/llvm -release".toList), 0) := by
  decide +kernel

example :
    let r := systemLlvmScript exShell exPosix "/o".toList ["/opt/gcc".toList] ⟨"/s".toList, []⟩
    exitStatus r.1 = 2 ∧ r.2.events = [] := by
  decide +kernel

example :
    let r := docGenScript exShell exPosix "/o".toList ⟨"/s".toList, []⟩
    exitStatus r.1 = 0 ∧ (commandsOf r.2.events).length = 12 ∧
      (commandsOf r.2.events).getLast? = some (("/s/../build/".toList,
        "tar zcf oclint-docs-dev-snapshot.tar.gz oclint-docs/".toList), 0) := by
  decide +kernel

/-- A word that is an option where the name of a part should be: everything is tested. -/
example :
    let r := ghActionsScript exShell exPosix "/o".toList ["test".toList, "-clean".toList]
      ⟨"/o/oclint-scripts".toList, []⟩
    ((commandsOf r.2.events).map (·.1.1)).take 8 = ["/o/oclint-scripts".toList, "/o".toList,
      "/o/build/googletest/lib".toList, "/o/build/googletest/lib".toList,
      "/o/build/oclint-core-test".toList, "/o/build/oclint-core-test".toList,
      "/o/build/oclint-core-test".toList, "/o/build/oclint-metrics-test".toList] := by
  decide +kernel

/-- `make` with a word that `ci` does not know does nothing, and with `-h` neither. -/
example :
    (exitStatus (makeScript exShell "/o".toList ["-fast".toList] ⟨"/s".toList, []⟩).1 = 2 ∧
      (makeScript exShell "/o".toList ["-fast".toList] ⟨"/s".toList, []⟩).2.events = []) ∧
    exitStatus (makeScript exShell "/o".toList ["-h".toList] ⟨"/s".toList, []⟩).1 = 0 ∧
      (makeScript exShell "/o".toList ["-h".toList] ⟨"/s".toList, []⟩).2.events = [] := by
  decide +kernel

/-- Four jobs are passed on to `build`. -/
example : ("/s".toList, "python3 build -clean -release -j 4".toList) ∈
    (commandsOf (makeScript exShell "/o".toList ["-j".toList, "4".toList] ⟨"/s".toList, []⟩).2.events).map
      (·.1) := by
  decide +kernel

end Oclint
