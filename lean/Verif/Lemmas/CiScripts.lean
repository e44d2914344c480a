import Verif.Spec.CiScripts
import Verif.Lemmas.BuildScripts

/-!
# Lemmas about the scripts that call other scripts
-/

namespace Oclint
open Spec

variable {sh : Shell} {f : Int}

/-! ## Lines of shell scripts -/

/-- What follows a part of a shell script. -/
def goOn (sh : Shell) (f : Int) (rest : List ShellLine) :
    Except Int Unit × ScriptState → Int × ScriptState
  | (.ok _, s) => inTurn sh f rest s
  | (.error e, s) => (e % 256, s)

/-- The part of the shell script does what the lines say. -/
def Runs (sh : Shell) (f : Int) (p : Script Unit) (ls : List ShellLine) : Prop :=
  ∀ s rest, inTurn sh f (ls ++ rest) s = goOn sh f rest (p s)

theorem runs_skip : Runs sh f .skip [] := fun _ _ => rfl

theorem runs_seq {p q : Script Unit} {P Q : List ShellLine} (hp : Runs sh f p P) (hq : Runs sh f q Q) :
    Runs sh f (p ;; q) (P ++ Q) := by
  intro s rest
  rw [List.append_assoc, hp]
  unfold Script.seq Script.andThen
  cases hr : p s with
  | mk r s' =>
    cases r with
    | error e => rfl
    | ok u => exact hq s' rest

theorem runs_each {α : Type} {g : α → Script Unit} {as : List α} {ls : List ShellLine}
    (h : List.Forall₂ (fun a l => Runs sh f (g a) [l]) as ls) : Runs sh f (Script.each as g) ls := by
  induction h with
  | nil => exact runs_skip
  | cons h1 _ ih => exact runs_seq h1 ih

theorem exitStatus_mod (r : Except Int Unit) : exitStatus r % 256 = exitStatus r := by
  cases r with
  | error e => exact Int.emod_emod_of_dvd e (Int.dvd_refl _)
  | ok u => rfl

theorem runs_script {p : Script Unit} {run : ScriptState → Int × ScriptState}
    (h : ∀ s, (exitStatus (p s).1, (p s).2) = run s) : Runs sh f (asProcess p) [.script run] := by
  intro s rest
  show (if (run s).1 = 0 then inTurn sh f rest ⟨s.cwd, (run s).2.events⟩
    else ((run s).1, ⟨s.cwd, (run s).2.events⟩)) = _
  rw [← h s]
  unfold asProcess
  by_cases h0 : exitStatus (p s).1 = 0
  · rw [if_pos h0, if_pos h0]
    rfl
  · rw [if_neg h0, if_neg h0]
    show _ = (exitStatus (p s).1 % 256, _)
    rw [exitStatus_mod]

theorem runs_command (text : Str) : Runs sh f (shellCall sh text) [.command text] := by
  intro s rest
  unfold shellCall subprocessCall Script.andThen Script.when
  show (if sh.run s.events s.cwd text = 0 then _ else _) = _
  by_cases h0 : sh.run s.events s.cwd text = 0
  · rw [if_pos h0]
    simp only [h0, ne_eq, not_true, decide_false, Bool.false_eq_true, if_false]
    rfl
  · rw [if_neg h0]
    simp only [ne_eq, h0, not_false_eq_true, decide_true, if_true]
    unfold Script.exit goOn shellStatus
    simp only
    by_cases h1 : 0 < sh.run s.events s.cwd text
    · rw [if_pos h1, if_neg (by omega)]
    · rw [if_neg h1, if_pos (by omega)]

theorem runs_goto (px : PosixShell) (dir : Str) (hd : dir.head? ≠ some '/') :
    Runs sh px.builtinCode (shellCd sh px dir) [.goto dir] := by
  intro s rest
  unfold shellCd
  rw [slashed_join s.cwd dir hd]
  show (if sh.works s.events (.enter (slashed s.cwd ++ dir)) = true then _ else _) = _
  by_cases h : sh.works s.events (.enter (slashed s.cwd ++ dir)) = true
  · rw [if_pos h, if_pos h]
    rfl
  · rw [if_neg h, if_neg h]
    rfl

theorem runs_stop (code : Int) : Runs sh f (.exit code) [.stop code] := fun _ _ => rfl

theorem runs_all {p : Script Unit} {ls : List ShellLine} (h : Runs sh f p ls) (s : ScriptState) :
    (exitStatus (p s).1, (p s).2) = inTurn sh f ls s := by
  have := h s []
  rw [List.append_nil] at this
  rw [this]
  cases hr : p s with
  | mk r s' => cases r <;> rfl

/-! ## Words -/

theorem isShellBlank_iff (c : Char) : isShellBlank c = true ↔ c = ' ' ∨ c = '\t' ∨ c = '\n' := by
  simp [isShellBlank, or_assoc]

theorem noBlank_iff (w : Str) :
    (∀ c ∈ w, isShellBlank c = false) ↔ ' ' ∉ w ∧ '\t' ∉ w ∧ '\n' ∉ w := by
  constructor
  · intro h
    refine ⟨fun hc => ?_, fun hc => ?_, fun hc => ?_⟩ <;>
    · have := h _ hc
      revert this
      decide
  · intro ⟨h1, h2, h3⟩ c hc
    by_contra hb
    have hb := (isShellBlank_iff c).1 (by simpa using hb)
    rcases hb with rfl | rfl | rfl
    · exact h1 hc
    · exact h2 hc
    · exact h3 hc

theorem splitOnP_word (w : Str) (h : ∀ c ∈ w, isShellBlank c = false) :
    w.splitOnP isShellBlank = [w] := by
  apply List.splitOnP_eq_singleton
  intro c hc
  simp [h c hc]

theorem shellFields_word {w : Str} (hw : w ≠ []) (h : ∀ c ∈ w, isShellBlank c = false) :
    shellFields w = [w] := by
  unfold shellFields
  rw [splitOnP_word w h]
  simp [hw]

theorem shellFields_cons {w s : Str} {b : Char} (h : ∀ c ∈ w, isShellBlank c = false)
    (hb : isShellBlank b = true) :
    shellFields (w ++ b :: s) = (if w = [] then [] else [w]) ++ shellFields s := by
  unfold shellFields
  rw [List.splitOnP_append_cons_of_forall_mem (by simpa using h) b hb s]
  by_cases hw : w = []
  · simp [hw]
  · simp [hw]

theorem fieldsOf_shellFields {s : Str} {ws : List Str} (h : FieldsOf s ws) : shellFields s = ws := by
  induction h with
  | nothing => simp [shellFields]
  | @blank b s ws hb _ ih =>
    have := shellFields_cons (w := []) (s := s) (by simp) ((isShellBlank_iff _).2 hb)
    rw [List.nil_append] at this
    rw [this, ih]
    rfl
  | last hw h1 h2 h3 => exact shellFields_word hw ((noBlank_iff _).2 ⟨h1, h2, h3⟩)
  | word hw h1 h2 h3 hb _ ih =>
    rw [shellFields_cons ((noBlank_iff _).2 ⟨h1, h2, h3⟩) ((isShellBlank_iff _).2 hb), if_neg hw, ih]
    rfl

theorem fieldsOf_total : ∀ (n : Nat) (s : Str), s.length ≤ n → ∃ ws, FieldsOf s ws := by
  intro n
  induction n with
  | zero =>
    intro s hs
    rw [List.length_eq_zero_iff.1 (Nat.le_zero.1 hs)]
    exact ⟨[], .nothing⟩
  | succ n ih =>
    intro s hs
    have hsp := List.takeWhile_append_dropWhile (p := fun c => !isShellBlank c) (l := s)
    have hw : ∀ c ∈ s.takeWhile fun c => !isShellBlank c, isShellBlank c = false := by
      intro c hc
      have := List.all_takeWhile (p := fun c => !isShellBlank c) (l := s)
      rw [List.all_eq_true] at this
      simpa using this c hc
    generalize s.takeWhile (fun c => !isShellBlank c) = w at hsp hw
    have hwi := (noBlank_iff w).1 hw
    cases hd : s.dropWhile fun c => !isShellBlank c with
    | nil =>
      rw [hd, List.append_nil] at hsp
      subst hsp
      by_cases hn : w = []
      · exact ⟨[], hn ▸ .nothing⟩
      · exact ⟨[w], .last hn hwi.1 hwi.2.1 hwi.2.2⟩
    | cons b t =>
      have hb : isShellBlank b = true := by
        have hne : (s.dropWhile fun c => !isShellBlank c) ≠ [] := by rw [hd]; simp
        have := List.head_dropWhile_not (fun c => !isShellBlank c) hne
        simp only [hd, List.head_cons] at this
        simpa using this
      rw [hd] at hsp
      have hlen : t.length ≤ n := by
        have := congrArg List.length hsp
        simp at this
        omega
      obtain ⟨ws, hws⟩ := ih t hlen
      subst hsp
      by_cases hn : w = []
      · subst hn
        exact ⟨ws, .blank ((isShellBlank_iff b).1 hb) hws⟩
      · exact ⟨w :: ws, .word hn hwi.1 hwi.2.1 hwi.2.2 ((isShellBlank_iff b).1 hb) hws⟩

theorem fieldsOf_iff (s : Str) (ws : List Str) : FieldsOf s ws ↔ shellFields s = ws := by
  constructor
  · exact fieldsOf_shellFields
  · intro h
    obtain ⟨ws', h'⟩ := fieldsOf_total s.length s (Nat.le_refl _)
    rw [← h, fieldsOf_shellFields h']
    exact h'

/-! ## Names of parts -/

theorem moduleChoice_iff (w : Str) (o : Option OclintModule) :
    moduleChoice w = some o ↔ NamesPart w o := by
  constructor
  · intro h
    unfold moduleChoice at h
    by_cases ha : w = "all".toList
    · rw [if_pos ha] at h
      cases h
      rw [ha]
      exact .all
    · rw [if_neg ha] at h
      obtain ⟨m, hm, rfl⟩ := Option.map_eq_some_iff.1 h
      have h1 := List.find?_some hm
      have h2 : m.name = w := by simpa using h1
      rw [← h2]
      cases m
      · exact .core
      · exact .metrics
      · exact .rules
      · exact .reporters
      · exact .driver
  · intro h
    cases h <;> decide +kernel

theorem moduleChoice_none (w : Str) : moduleChoice w = none ↔ ∀ o, ¬ NamesPart w o := by
  constructor
  · intro h o ho
    rw [(moduleChoice_iff w o).2 ho] at h
    cases h
  · intro h
    cases hc : moduleChoice w with
    | none => rfl
    | some o => exact absurd ((moduleChoice_iff w o).1 hc) (h o)

/-! ## `googleTest` -/

theorem useLlvmClang_ok (r : Str) (b : Bool) (s : ScriptState) :
    useLlvmClang sh r b s = (.ok (), if b then (doStep sh s (.compiler r)).2 else s) := by
  have e1 := join_bin r "clang".toList (by decide +kernel)
  have e2 := join_bin r "clang++".toList (by decide +kernel)
  unfold useLlvmClang doStep
  rw [e1, e2]
  simp only
  generalize slashed r ++ "bin/".toList ++ "clang".toList = n1
  generalize slashed r ++ "bin/".toList ++ "clang++".toList = n2
  cases b with
  | false => rfl
  | true =>
    unfold Script.when
    simp only [if_true]
    by_cases h : sh.pathExists s.events n1 = true
    · simp only [h, if_true]
    · simp only [h, Bool.false_eq_true, if_false, List.append_nil]
      rfl

theorem gtestCommand_eq {root : Str} (hr : ProjectRoot root) :
    gtestCommand sh root = unwords (gtestWords sh.isDarwin root) := by
  unfold gtestCommand gtestWords gtestSources
  have e : "\"".toList ++ "-std=c++11 -stdlib=libc++ ${CMAKE_CXX_FLAGS}".toList ++ "\"".toList =
      "\"-std=c++11 -stdlib=libc++ ${CMAKE_CXX_FLAGS}\"".toList := by decide +kernel
  rw [e, (googletest_eq hr).1]
  refine isCommand_str (ws := ["cmake".toList] ++ _) ?_ _
  exact isCommand_if (w2 := []) sh.isDarwin (fun _ => isCommand_append isCommand_cmake _ _)
    fun _ => isCommand_cmake

theorem processMake_eq (j : Int) : processMake sh j = processCall sh (builder sh.cpuCount true j) :=
  makeOrNinja_eq sh true j

theorem gtest_run {root : Str} (hr : ProjectRoot root) (a : GtestArgs) (s : ScriptState) :
    (exitStatus (gtestScript sh root a s).1, (gtestScript sh root a s).2) = gtestRun sh root a s := by
  have hclone : "git clone ".toList ++ "https://github.com/google/googletest.git".toList
      ++ " googletest".toList = gtestClone := by decide +kernel
  unfold gtestScript gtestRun Script.seq Script.andThen
  rw [useLlvmClang_ok]
  simp only
  have hcwd : (if a.useLlvmClang then (doStep sh s (.compiler a.llvmRoot)).2 else s).cwd = s.cwd := by
    cases a.useLlvmClang <;> rfl
  generalize (if a.useLlvmClang then (doStep sh s (.compiler a.llvmRoot)).2 else s) = s1 at hcwd
  rw [← hcwd]
  cases s1 with
  | mk c ev =>
  simp only
  cases a.task with
  | checkout =>
    simp only
    unfold gtestCheckout
    rw [(googletest_eq hr).1, hclone]
    unfold gtestSources
    simp only
    by_cases h : sh.isDir ev (root ++ "/googletest".toList) = true
    · rw [if_pos h, if_pos h]
      rfl
    · rw [if_neg h, if_neg h]
      exact does_exit (does_returning (does_seq (does_enter root c) (does_call gtestClone root))) ev
  | update =>
    simp only
    unfold gtestUpdate
    rw [(googletest_eq hr).1]
    unfold gtestSources
    simp only
    by_cases h : sh.isDir ev (root ++ "/googletest".toList) = true
    · rw [if_pos h, if_pos h]
      exact does_exit (does_returning (does_seq (does_enter _ c) (does_call _ _))) ev
    · rw [if_neg h, if_neg h]
      rfl
  | build =>
    simp only
    unfold gtestBuild
    rw [(googletest_eq hr).2, processMake_eq, gtestCommand_eq hr]
    unfold gtestDir
    exact does_exit (does_seq (does_when a.clean fun _ => does_rmF _ c)
      (does_returning (does_seq (does_mkdirP _ c) (does_seq (does_enter _ c)
        (does_seq (does_call _ _) (does_call _ _)))))) ev

end Oclint
