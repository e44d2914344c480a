import Verif.Spec.BuildScripts
import Verif.Lemmas.SourceLines

/-!
# Lemmas about the scripts that build, test and check the project
-/

namespace Oclint
open Spec

/-! ## Scripts that run commands one after the other -/

/-- A script stopped early: the cases of `RunOf` other than `finished`. -/
inductive Stopped (solid : Prop) (plan : List Planned) : List (Planned × Int) → Int → Prop where
  | failed (before : List Planned) (step : Planned) (after : List Planned) (code : Int) :
      plan = before ++ step :: after → code ≠ 0 →
      Stopped solid plan (passed before ++ [(step, code)]) code
  | broken (before after : List Planned) : ¬ solid → plan = before ++ after →
      Stopped solid plan (passed before) 1
  | unread (before : List Planned) (step : Planned) (after : List Planned) (code : Int) : ¬ solid →
      plan = before ++ step :: after → code ≠ 0 →
      Stopped solid plan (passed before ++ [(step, code)]) 1

theorem Stopped.runOf {solid : Prop} {plan : List Planned} {log : List (Planned × Int)} {code : Int}
    (h : Stopped solid plan log code) : RunOf solid plan log code := by
  cases h with
  | failed before step after _ h1 h2 => exact .failed before step after _ h1 h2
  | broken before after h1 h2 => exact .broken before after h1 h2
  | unread before step after c h1 h2 h3 => exact .unread before step after c h1 h2 h3

theorem passed_append (p q : List Planned) : passed (p ++ q) = passed p ++ passed q := by
  simp [passed]

theorem Stopped.more {solid : Prop} {plan : List Planned} {log : List (Planned × Int)} {code : Int}
    (h : Stopped solid plan log code) (more : List Planned) : Stopped solid (plan ++ more) log code := by
  cases h with
  | failed before step after _ h1 h2 => exact .failed before step (after ++ more) _ (by simp [h1]) h2
  | broken before after h1 h2 => exact .broken before (after ++ more) h1 (by simp [h2])
  | unread before step after c h1 h2 h3 =>
    exact .unread before step (after ++ more) c h1 (by simp [h2]) h3

theorem Stopped.after {solid : Prop} {plan : List Planned} {log : List (Planned × Int)} {code : Int}
    (h : Stopped solid plan log code) (first : List Planned) :
    Stopped solid (first ++ plan) (passed first ++ log) code := by
  cases h with
  | failed before step after _ h1 h2 =>
    rw [← List.append_assoc, ← passed_append]
    exact .failed (first ++ before) step after _ (by simp [h1]) h2
  | broken before after h1 h2 =>
    rw [← passed_append]
    exact .broken (first ++ before) after h1 (by simp [h2])
  | unread before step after c h1 h2 h3 =>
    rw [← List.append_assoc, ← passed_append]
    exact .unread (first ++ before) step after c h1 (by simp [h2]) h3

/-- Started in the directory `c`, the script runs the commands `plan` and is then in `c'`, or stops; all
its file operations are in `A`. -/
def Follows (sh : Shell) (A : FileAction → Prop) (p : Script Unit) (c c' : Str) (plan : List Planned) :
    Prop :=
  ∀ ev, ∃ new, (p ⟨c, ev⟩).2.events = ev ++ new ∧ (∀ a ∈ actionsOf new, A a) ∧
    (((p ⟨c, ev⟩).1 = .ok () ∧ (p ⟨c, ev⟩).2.cwd = c' ∧ commandsOf new = passed plan) ∨
      ∃ e, (p ⟨c, ev⟩).1 = .error e ∧ Stopped (Solid sh) plan (commandsOf new) e)

theorem commandsOf_append (a b : List ScriptEvent) :
    commandsOf (a ++ b) = commandsOf a ++ commandsOf b := List.filterMap_append

theorem actionsOf_append (a b : List ScriptEvent) :
    actionsOf (a ++ b) = actionsOf a ++ actionsOf b := List.filterMap_append

variable {sh : Shell} {A : FileAction → Prop}

theorem follows_skip (c : Str) : Follows sh A .skip c c [] := by
  intro ev
  exact ⟨[], by simp [Script.skip], by simp [actionsOf], .inl ⟨rfl, rfl, rfl⟩⟩

theorem follows_seq {p q : Script Unit} {c c1 c2 : Str} {P Q : List Planned}
    (hp : Follows sh A p c c1 P) (hq : Follows sh A q c1 c2 Q) :
    Follows sh A (p ;; q) c c2 (P ++ Q) := by
  intro ev
  obtain ⟨new, h1, h2, h3⟩ := hp ev
  unfold Script.seq Script.andThen
  cases hr : p ⟨c, ev⟩ with
  | mk r s =>
    rw [hr] at h1 h3
    simp only at h1 h3
    rcases h3 with ⟨e1, e2, e3⟩ | ⟨e, e1, e2⟩
    · obtain ⟨new', g1, g2, g3⟩ := hq (ev ++ new)
      have hs : s = ⟨c1, ev ++ new⟩ := by cases s; simp_all
      subst e1
      simp only
      rw [hs]
      refine ⟨new ++ new', by rw [g1, List.append_assoc], ?_, ?_⟩
      · intro a ha
        rw [actionsOf_append] at ha
        exact (List.mem_append.1 ha).elim (h2 a) (g2 a)
      · rcases g3 with ⟨f1, f2, f3⟩ | ⟨e, f1, f2⟩
        · exact .inl ⟨f1, f2, by rw [commandsOf_append, e3, f3, passed_append]⟩
        · exact .inr ⟨e, f1, by rw [commandsOf_append, e3]; exact f2.after P⟩
    · subst e1
      exact ⟨new, h1, h2, .inr ⟨e, rfl, e2.more Q⟩⟩

theorem follows_each {α : Type} {f : α → Script Unit} {c : Str} {plan : α → List Planned} :
    ∀ as : List α, (∀ a ∈ as, Follows sh A (f a) c c (plan a)) →
      Follows sh A (Script.each as f) c c (as.flatMap plan)
  | [], _ => follows_skip c
  | a :: as, h => by
    rw [List.flatMap_cons]
    exact follows_seq (h a List.mem_cons_self)
      (follows_each as fun b hb => h b (List.mem_cons_of_mem _ hb))

theorem follows_when {p : Script Unit} {c : Str} {P : List Planned} (b : Bool)
    (hp : b = true → Follows sh A p c c P) : Follows sh A (Script.when b p) c c (if b then P else []) := by
  cases b with
  | false => exact follows_skip c
  | true => exact hp rfl

theorem follows_perform (a : FileAction) (c : Str) (ha : A a) :
    Follows sh A (perform sh a) c (a.cwdAfter c) [] := by
  intro ev
  unfold perform
  by_cases hw : sh.works ev a = true
  · rw [if_pos hw]
    refine ⟨[.did a], rfl, ?_, .inl ⟨rfl, rfl, rfl⟩⟩
    intro b hb
    simp [actionsOf] at hb
    rw [hb]
    exact ha
  · rw [if_neg hw]
    refine ⟨[], by simp, by simp [actionsOf], .inr ⟨1, rfl, ?_⟩⟩
    exact .broken [] [] (fun hs => hw (hs ev a)) rfl

theorem follows_enter (d c : Str) (ha : A (.enter d)) : Follows sh A (perform sh (.enter d)) c d [] :=
  follows_perform (.enter d) c ha

theorem follows_call (cmd c : Str) : Follows sh A (processCall sh cmd) c c [(c, cmd)] := by
  intro ev
  refine ⟨[.ran c cmd (sh.run ev c cmd)], ?_, by simp [actionsOf], ?_⟩
  · unfold processCall subprocessCall Script.andThen Script.when
    simp only
    split <;> rfl
  · by_cases h : sh.run ev c cmd = 0
    · left
      unfold processCall subprocessCall Script.andThen Script.when
      simp only [h]
      exact ⟨rfl, rfl, rfl⟩
    · right
      refine ⟨sh.run ev c cmd, ?_, .failed [] (c, cmd) [] _ rfl h⟩
      unfold processCall subprocessCall Script.andThen Script.when
      simp only [ne_eq, h, not_false_eq_true, decide_true, if_true]
      rfl

theorem follows_callAndShow (cmd file c : Str) (ha : A (.show file)) :
    Follows sh A (callAndShow sh cmd file) c c [(c, cmd)] := by
  intro ev
  generalize hr : sh.run ev c cmd = code
  have e0 : callAndShow sh cmd file ⟨c, ev⟩ =
      (perform sh (.show file) ;; Script.when (decide (code ≠ 0)) (.exit code))
        ⟨c, ev ++ [.ran c cmd code]⟩ := by
    unfold callAndShow subprocessCall Script.andThen
    simp only [hr]
  rw [e0]
  unfold Script.seq Script.andThen perform
  by_cases hw : sh.works (ev ++ [.ran c cmd code]) (.show file) = true
  · simp only [hw, if_true]
    refine ⟨[.ran c cmd code, .did (.show file)], ?_, ?_, ?_⟩
    · unfold Script.when
      split <;> simp [Script.exit, Script.skip]
    · intro b hb
      simp [actionsOf] at hb
      rw [hb]
      exact ha
    · by_cases h : code = 0
      · left
        subst h
        exact ⟨rfl, rfl, rfl⟩
      · right
        refine ⟨code, ?_, .failed [] (c, cmd) [] _ rfl h⟩
        unfold Script.when
        simp only [ne_eq, h, not_false_eq_true, decide_true, if_true]
        rfl
  · have hns : ¬ Solid sh := fun hs => hw (hs _ _)
    simp only [hw]
    refine ⟨[.ran c cmd code], rfl, by simp [actionsOf], .inr ⟨1, rfl, ?_⟩⟩
    by_cases h : code = 0
    · subst h
      exact .broken [(c, cmd)] [] hns rfl
    · exact .unread [] (c, cmd) [] code hns rfl h

theorem follows_rmF (d c : Str) (ha : A (.remove d)) : Follows sh A (pathRmF sh d) c c [] := by
  intro ev
  unfold pathRmF
  have := follows_when (sh := sh) (A := A) (P := []) (sh.isDir ev d)
    (fun _ => follows_perform (.remove d) c ha) ev
  simpa using this

theorem follows_mkdirP (d c : Str) (ha : A (.make d)) : Follows sh A (pathMkdirP sh d) c c [] := by
  intro ev
  unfold pathMkdirP
  have := follows_when (sh := sh) (A := A) (P := []) (!sh.isDir ev d)
    (fun _ => follows_perform (.make d) c ha) ev
  simpa using this

theorem follows_returning {p : Script Unit} {c c1 : Str} {P : List Planned}
    (hp : Follows sh A p c c1 P) (ha : A (.enter c)) : Follows sh A (returning sh p) c c P := by
  intro ev
  have := follows_seq hp (follows_enter c c1 ha) ev
  rwa [List.append_nil] at this

theorem follows_useLlvmClang (r c : Str) (b : Bool) : Follows sh A (useLlvmClang sh r b) c c [] := by
  intro ev
  unfold useLlvmClang Script.when
  split
  · simp only
    split
    · exact ⟨_, rfl, by simp [actionsOf], .inl ⟨rfl, rfl, rfl⟩⟩
    · exact follows_skip c ev
  · exact follows_skip c ev

/-! ## Directories -/

theorem osPathJoin_rooted {a b : Str} (ha : ProjectRoot a) (hb : b.head? ≠ some '/') :
    osPathJoin a b = a ++ '/' :: b := by
  unfold osPathJoin
  rw [if_neg hb, if_neg (by simp [ha.1, ha.2])]

theorem projectRoot_append {a b : Str} (hb : ProjectRoot b) : ProjectRoot (a ++ b) := by
  refine ⟨by simp [hb.1], ?_⟩
  rw [List.getLast?_append, List.getLast?_eq_some_getLast hb.1, Option.some_or,
    ← List.getLast?_eq_some_getLast hb.1]
  exact hb.2

theorem projectRoot_join {a b : Str} (ha : ProjectRoot a) (hb : ProjectRoot b)
    (hb' : b.head? ≠ some '/') : ProjectRoot (osPathJoin a b) := by
  rw [osPathJoin_rooted ha hb', ← List.singleton_append, ← List.append_assoc]
  exact projectRoot_append hb

theorem buildRoot_eq {root : Str} (hr : ProjectRoot root) :
    buildRoot root = root ++ "/build".toList ∧ ProjectRoot (buildRoot root) := by
  refine ⟨osPathJoin_rooted hr (by decide +kernel), projectRoot_join hr ?_ (by decide +kernel)⟩
  unfold ProjectRoot
  decide +kernel

theorem moduleBuildDir_eq {root name : Str} (hr : ProjectRoot root) (hn : name.head? ≠ some '/') :
    moduleBuildDir root name = root ++ "/build/".toList ++ name := by
  unfold moduleBuildDir
  rw [osPathJoin_rooted (buildRoot_eq hr).2 hn, (buildRoot_eq hr).1]
  have : "/build/".toList = "/build".toList ++ ['/'] := by decide +kernel
  rw [this]
  simp only [List.append_assoc, List.singleton_append]

theorem name_eq (m : OclintModule) : m.name = partName m := by cases m <;> rfl

theorem head_oclint (name : Str) : ("oclint-".toList ++ name).head? ≠ some '/' := by
  have : "oclint-".toList = 'o' :: "clint-".toList := by decide +kernel
  rw [this]
  simp

theorem testDir_eq {root : Str} (hr : ProjectRoot root) (m : OclintModule) :
    moduleTestDir root m = workDir root "-test".toList m := by
  unfold moduleTestDir workDir
  rw [name_eq, List.append_assoc "oclint-".toList, moduleBuildDir_eq hr (head_oclint _)]
  have : "/build/oclint-".toList = "/build/".toList ++ "oclint-".toList := by decide +kernel
  rw [this]
  simp only [List.append_assoc]

theorem dogDir_eq {root : Str} (hr : ProjectRoot root) (m : OclintModule) :
    moduleDogfoodingDir root m = workDir root "-dogfooding".toList m := by
  unfold moduleDogfoodingDir workDir
  rw [name_eq, List.append_assoc "oclint-".toList, moduleBuildDir_eq hr (head_oclint _)]
  have : "/build/oclint-".toList = "/build/".toList ++ "oclint-".toList := by decide +kernel
  rw [this]
  simp only [List.append_assoc]

theorem buildDir_eq {root : Str} (hr : ProjectRoot root) (m : OclintModule) :
    moduleOwnBuildDir root m = workDir root [] m := by
  unfold moduleOwnBuildDir oclintModuleBuildDir workDir
  rw [name_eq, moduleBuildDir_eq hr (head_oclint _)]
  have : "/build/oclint-".toList = "/build/".toList ++ "oclint-".toList := by decide +kernel
  rw [this]
  simp only [List.append_assoc, List.append_nil]

theorem sourceDir_eq {root : Str} (hr : ProjectRoot root) (m : OclintModule) :
    moduleSourceDir root m = sourceDir root m := by
  unfold moduleSourceDir sourceDir
  rw [name_eq, osPathJoin_rooted hr (head_oclint _)]
  have : "/oclint-".toList = '/' :: "oclint-".toList := by decide +kernel
  rw [this]
  simp only [List.append_assoc, List.cons_append]

theorem projectRoot_workDir (root suffix : Str) (m : OclintModule)
    (hs : suffix = [] ∨ ProjectRoot suffix) : ProjectRoot (workDir root suffix m) := by
  unfold workDir
  rcases hs with rfl | hs
  · rw [List.append_nil]
    refine projectRoot_append ?_
    unfold ProjectRoot
    cases m <;> decide +kernel
  · exact projectRoot_append hs

/-! ## Commands -/

/-- The command consists of these words. -/
def IsCommand (cmd : Str) (ws : List Str) : Prop := ws ≠ [] ∧ cmd = unwords ws

theorem unwords_append (ws vs : List Str) (hw : ws ≠ []) (hv : vs ≠ []) :
    unwords (ws ++ vs) = unwords ws ++ ' ' :: unwords vs := by
  induction ws with
  | nil => exact absurd rfl hw
  | cons w ws ih =>
    cases ws with
    | nil =>
      cases vs with
      | nil => exact absurd rfl hv
      | cons v vs => rfl
    | cons w' ws =>
      have := ih (by simp)
      show w ++ ' ' :: unwords ((w' :: ws) ++ vs) = (w ++ ' ' :: unwords (w' :: ws)) ++ _
      rw [this]
      simp only [List.append_assoc, List.cons_append]

theorem isCommand_append {cmd : Str} {ws : List Str} (h : IsCommand cmd ws) (k v : Str) :
    IsCommand (cmakeAppend cmd k v) (ws ++ define k v) := by
  refine ⟨by simp [h.1], ?_⟩
  rw [unwords_append _ _ h.1 (by simp [define]), h.2]
  unfold cmakeAppend define
  have e1 : " -D ".toList = ' ' :: ("-D".toList ++ [' ']) := by decide +kernel
  have e2 : "=".toList = ['='] := by decide +kernel
  have e3 : ∀ w, unwords ["-D".toList, w] = "-D".toList ++ ' ' :: w := fun _ => rfl
  rw [e1, e2, e3]
  simp only [List.append_assoc, List.cons_append, List.nil_append]

theorem isCommand_ninja {cmd : Str} {ws : List Str} (h : IsCommand cmd ws) :
    IsCommand (cmakeNinja cmd) (ws ++ ["-G".toList, "Ninja".toList]) := by
  refine ⟨by simp [h.1], ?_⟩
  rw [unwords_append _ _ h.1 (by simp), h.2]
  unfold cmakeNinja
  have e1 : " -G Ninja".toList = ' ' :: unwords ["-G".toList, "Ninja".toList] := by decide +kernel
  rw [e1]

theorem isCommand_dict (d : List (Str × Str)) {cmd : Str} {ws : List Str} (h : IsCommand cmd ws) :
    IsCommand (cmakeAppendDict cmd d) (ws ++ d.flatMap fun kv => define kv.1 kv.2) := by
  induction d generalizing cmd ws with
  | nil => simpa [cmakeAppendDict] using h
  | cons kv d ih =>
    have := ih (isCommand_append h kv.1 kv.2)
    rw [List.flatMap_cons, ← List.append_assoc]
    exact this

theorem isCommand_str {cmd : Str} {ws : List Str} (h : IsCommand cmd ws) (source : Str) :
    cmakeStr cmd source = unwords (ws ++ [source]) := by
  rw [unwords_append _ _ h.1 (by simp), h.2]
  unfold cmakeStr
  have e1 : " ".toList = [' '] := by decide +kernel
  rw [e1]
  simp only [List.append_assoc, List.cons_append, List.nil_append]
  rfl

theorem isCommand_if {c1 c2 : Str} {w1 w2 ws : List Str} (b : Bool) (h1 : b = true → IsCommand c1 (ws ++ w1))
    (h2 : b = false → IsCommand c2 (ws ++ w2)) :
    IsCommand (if b then c1 else c2) (ws ++ if b then w1 else w2) := by
  cases b with
  | true => exact h1 rfl
  | false => exact h2 rfl

theorem extras_eq {root suffix : Str} (hr : ProjectRoot root) (dirOf : OclintModule → Str)
    (hd : ∀ m, dirOf m = workDir root suffix m) (m : OclintModule) :
    ((moduleExtras root dirOf m).flatMap fun kv => define kv.1 kv.2) =
      (needs m).flatMap (tells root suffix) := by
  have hc : define "OCLINT_SOURCE_DIR".toList (moduleSourceDir root .core) ++
      define "OCLINT_BUILD_DIR".toList (dirOf .core) = tells root suffix .core := by
    rw [hd, sourceDir_eq hr]
    unfold tells sourceDir workDir partName
    have e1 : "/oclint-core".toList = "/oclint-".toList ++ "core".toList := by decide +kernel
    have e2 : "/build/oclint-core".toList = "/build/oclint-".toList ++ "core".toList := by decide +kernel
    rw [e1, e2]
    simp only [List.append_assoc]
  have hm : define "OCLINT_METRICS_SOURCE_DIR".toList (moduleSourceDir root .metrics) ++
      define "OCLINT_METRICS_BUILD_DIR".toList (dirOf .metrics) = tells root suffix .metrics := by
    rw [hd, sourceDir_eq hr]
    unfold tells sourceDir workDir partName
    have e1 : "/oclint-metrics".toList = "/oclint-".toList ++ "metrics".toList := by decide +kernel
    have e2 : "/build/oclint-metrics".toList = "/build/oclint-".toList ++ "metrics".toList := by
      decide +kernel
    rw [e1, e2]
    simp only [List.append_assoc]
  unfold moduleExtras
  cases m with
  | core => rfl
  | metrics => rfl
  | rules =>
    show _ ++ (_ ++ (_ ++ (_ ++ []))) = tells root suffix .core ++ (tells root suffix .metrics ++ [])
    rw [← hc, ← hm]
    simp only [List.append_assoc, List.append_nil]
  | reporters =>
    show _ ++ (_ ++ []) = tells root suffix .core ++ []
    rw [← hc]
    simp only [List.append_assoc]
  | driver =>
    show _ ++ (_ ++ []) = tells root suffix .core ++ []
    rw [← hc]
    simp only [List.append_assoc]

theorem isCommand_cmake : IsCommand "cmake".toList ["cmake".toList] := ⟨by simp, rfl⟩

theorem buildCommand_eq {root : Str} (hr : ProjectRoot root) (a : BuildArgs) (m : OclintModule) :
    buildCommand a (moduleExtras root (moduleOwnBuildDir root) m) (moduleSourceDir root m) =
      unwords (buildWords root a m) := by
  unfold buildCommand buildWords
  simp only
  rw [sourceDir_eq hr, isCommand_str]
  rw [← extras_eq hr _ (buildDir_eq hr)]
  have h1 := isCommand_if (w1 := []) a.noNinja (ws := ["cmake".toList]) (fun _ => isCommand_cmake)
    fun _ => isCommand_ninja isCommand_cmake
  have h2 := isCommand_if (w2 := []) a.release (fun _ => isCommand_append h1
    "OCLINT_BUILD_TYPE".toList "Release".toList) fun _ => by rw [List.append_nil]; exact h1
  have h3 := isCommand_if (w2 := []) a.docgen (fun _ => isCommand_append h2
    "DOC_GEN_BUILD".toList "1".toList) fun _ => by rw [List.append_nil]; exact h2
  have h4 := isCommand_dict (("LLVM_ROOT".toList, a.llvmRoot) ::
    moduleExtras root (moduleOwnBuildDir root) m) h3
  rw [List.flatMap_cons, ← List.append_assoc] at h4
  exact h4

theorem googletest_eq {root : Str} (hr : ProjectRoot root) :
    googletestDir root = root ++ "/googletest".toList ∧
      googletestBuildDir root = root ++ "/build/googletest/lib".toList := by
  have hg : ("googletest".toList).head? ≠ some '/' := by decide +kernel
  have hl : ("lib".toList).head? ≠ some '/' := by decide +kernel
  have hp : ProjectRoot "googletest".toList := by unfold ProjectRoot; decide +kernel
  refine ⟨osPathJoin_rooted hr hg, ?_⟩
  unfold googletestBuildDir
  rw [moduleBuildDir_eq hr hg, osPathJoin_rooted (projectRoot_append hp) hl]
  have e : "/build/googletest/lib".toList = "/build/".toList ++ ("googletest".toList ++ '/' :: "lib".toList) := by
    decide +kernel
  rw [e]
  simp only [List.append_assoc]

theorem testCommand_eq {root : Str} (hr : ProjectRoot root) (a : TestArgs) (m : OclintModule) :
    testCommand root a (moduleExtras root (moduleTestDir root) m) (moduleSourceDir root m) =
      unwords (testWords root a m) := by
  unfold testCommand testWords
  simp only
  rw [sourceDir_eq hr, isCommand_str]
  rw [← extras_eq hr _ (testDir_eq hr)]
  have h1 := isCommand_if (w1 := []) a.asDep (ws := ["cmake".toList]) (fun _ => isCommand_cmake)
    fun _ => isCommand_append isCommand_cmake "TEST_BUILD".toList "1".toList
  have h2 := isCommand_if (w1 := []) a.noNinja (fun _ => by rw [List.append_nil]; exact h1)
    fun _ => isCommand_ninja h1
  have h4 := isCommand_dict ([("LLVM_ROOT".toList, a.llvmRoot),
    ("GOOGLETEST_SRC".toList, googletestDir root),
    ("GOOGLETEST_BUILD".toList, googletestBuildDir root)] ++
      moduleExtras root (moduleTestDir root) m) h2
  rw [List.flatMap_append, List.flatMap_cons, List.flatMap_cons, List.flatMap_cons, List.flatMap_nil,
    List.append_nil] at h4
  simp only [(googletest_eq hr).1, (googletest_eq hr).2] at h4 ⊢
  simp only [List.append_assoc] at h4 ⊢
  exact h4

theorem dogCommand_eq {root : Str} (hr : ProjectRoot root) (a : DogArgs) (m : OclintModule) :
    dogCommand a (moduleExtras root (moduleOwnBuildDir root) m) (moduleSourceDir root m) =
      unwords (dogWords root a m) := by
  unfold dogCommand dogWords
  rw [sourceDir_eq hr, isCommand_str]
  rw [← extras_eq hr _ (buildDir_eq hr)]
  have h1 := isCommand_append isCommand_cmake "CMAKE_EXPORT_COMPILE_COMMANDS".toList "ON".toList
  have h4 := isCommand_dict (("LLVM_ROOT".toList, a.llvmRoot) ::
    moduleExtras root (moduleOwnBuildDir root) m) h1
  rw [List.flatMap_cons, ← List.append_assoc] at h4
  exact h4

theorem jFlag_eq (sh : Shell) (j : Int) :
    jFlag sh j = " -j ".toList ++ (if j = 0 then decimal sh.cpuCount else decimalInt j) := by
  unfold jFlag
  rw [toStringInt_eq, toStringInt_eq]
  by_cases h : j = 0
  · rw [if_neg (by simp [h]), if_pos h]
    unfold decimalInt
    rw [if_neg (by omega)]
    simp
  · rw [if_pos h, if_neg h]

theorem makeOrNinja_eq (sh : Shell) (noNinja : Bool) (j : Int) :
    makeOrNinja sh noNinja j = processCall sh (builder sh.cpuCount noNinja j) := by
  have e1 : ∀ n : Str, "make".toList ++ (" -j ".toList ++ n) = unwords ["make".toList, "-j".toList, n] := by
    intro n
    have : " -j ".toList = ' ' :: ("-j".toList ++ [' ']) := by decide +kernel
    rw [this]
    show _ = "make".toList ++ ' ' :: ("-j".toList ++ ' ' :: n)
    simp only [List.append_assoc, List.cons_append, List.nil_append]
  have e2 : ∀ n : Str, "ninja".toList ++ (" -j ".toList ++ n) =
      unwords ["ninja".toList, "-j".toList, n] := by
    intro n
    have : " -j ".toList = ' ' :: ("-j".toList ++ [' ']) := by decide +kernel
    rw [this]
    show _ = "ninja".toList ++ ' ' :: ("-j".toList ++ ' ' :: n)
    simp only [List.append_assoc, List.cons_append, List.nil_append]
  unfold makeOrNinja builder
  cases noNinja with
  | true =>
    simp only [if_true]
    unfold processMake
    rw [jFlag_eq, e1]
  | false =>
    simp only [Bool.false_eq_true, if_false]
    unfold processNinja
    by_cases h : j = 0
    · rw [if_neg (by simp [h]), if_pos h]
      rfl
    · rw [if_pos h, if_neg h, jFlag_eq, if_neg h, e2]

theorem follows_builder (noNinja : Bool) (j : Int) (c : Str) :
    Follows sh A (makeOrNinja sh noNinja j) c c [(c, builder sh.cpuCount noNinja j)] := by
  rw [makeOrNinja_eq]
  exact follows_call _ c

/-! ## Steps -/

/-- What follows a part of a script. -/
def onward (sh : Shell) (rest : List ScriptStep) : Except Int Unit × ScriptState → Int × ScriptState
  | (.ok _, s) => carryOut sh rest s
  | (.error e, s) => (e % 256, s)

/-- Started in the directory `c`, the part of the script carries out the steps and is then in `c'`. -/
def Does (sh : Shell) (p : Script Unit) (c c' : Str) (steps : List ScriptStep) : Prop :=
  ∀ ev, (∀ rest, carryOut sh (steps ++ rest) ⟨c, ev⟩ = onward sh rest (p ⟨c, ev⟩)) ∧
    ((p ⟨c, ev⟩).1 = .ok () → (p ⟨c, ev⟩).2.cwd = c')

theorem does_skip (c : Str) : Does sh .skip c c [] := fun _ => ⟨fun _ => rfl, fun _ => rfl⟩

theorem does_seq {p q : Script Unit} {c c1 c2 : Str} {P Q : List ScriptStep}
    (hp : Does sh p c c1 P) (hq : Does sh q c1 c2 Q) : Does sh (p ;; q) c c2 (P ++ Q) := by
  intro ev
  obtain ⟨h1, h2⟩ := hp ev
  unfold Script.seq Script.andThen
  cases hr : p ⟨c, ev⟩ with
  | mk r s =>
    rw [hr] at h1 h2
    cases r with
    | error e =>
      refine ⟨fun rest => ?_, by simp⟩
      rw [List.append_assoc, h1]
      rfl
    | ok u =>
      have hs : s = ⟨c1, s.events⟩ := by
        have := h2 rfl
        simp only at this
        rw [← this]
      simp only
      rw [hs]
      refine ⟨fun rest => ?_, (hq s.events).2⟩
      rw [List.append_assoc, h1, ← (hq s.events).1 rest]
      show carryOut sh (Q ++ rest) s = _
      rw [← hs]

theorem does_each {α : Type} {f : α → Script Unit} {c : Str} {plan : α → List ScriptStep} :
    ∀ as : List α, (∀ a ∈ as, Does sh (f a) c c (plan a)) →
      Does sh (Script.each as f) c c (as.flatMap plan)
  | [], _ => does_skip c
  | a :: as, h => by
    rw [List.flatMap_cons]
    exact does_seq (h a List.mem_cons_self) (does_each as fun b hb => h b (List.mem_cons_of_mem _ hb))

theorem does_map {α : Type} {f : α → Script Unit} {c : Str} {plan : α → ScriptStep} (as : List α)
    (h : ∀ a, Does sh (f a) c c [plan a]) : Does sh (Script.each as f) c c (as.map plan) := by
  have := does_each (plan := fun a => [plan a]) as fun a _ => h a
  rwa [← List.map_eq_flatMap] at this

theorem does_when {p : Script Unit} {c : Str} {P : List ScriptStep} (b : Bool)
    (hp : b = true → Does sh p c c P) : Does sh (Script.when b p) c c (if b then P else []) := by
  cases b with
  | false => exact does_skip c
  | true => exact hp rfl

/-- A single step. -/
theorem does_one {p : Script Unit} {c c' : Str} {step : ScriptStep}
    (h : ∀ ev, (p ⟨c, ev⟩).2 = (doStep sh ⟨c, ev⟩ step).2 ∧
      (match (doStep sh ⟨c, ev⟩ step).1 with
        | none => (p ⟨c, ev⟩).1 = .ok () ∧ (p ⟨c, ev⟩).2.cwd = c'
        | some e => (p ⟨c, ev⟩).1 = .error e)) : Does sh p c c' [step] := by
  intro ev
  obtain ⟨h1, h2⟩ := h ev
  cases hd : doStep sh ⟨c, ev⟩ step with
  | mk r s =>
    cases hp : p ⟨c, ev⟩ with
    | mk r' s' =>
      rw [hd, hp] at h1 h2
      simp only at h1 h2
      subst h1
      cases r with
      | none =>
        obtain ⟨h2, h3⟩ := h2
        subst h2
        refine ⟨fun rest => ?_, fun _ => h3⟩
        show carryOut sh (step :: rest) _ = _
        rw [carryOut, hd]
        rfl
      | some e =>
        subst h2
        refine ⟨fun rest => ?_, by simp⟩
        show carryOut sh (step :: rest) _ = _
        rw [carryOut, hd]
        rfl

theorem perform_step (a : FileAction) (c : Str) (ev : List ScriptEvent) :
    (perform sh a ⟨c, ev⟩).2 = (doAction sh a ⟨c, ev⟩).2 ∧
      (match (doAction sh a ⟨c, ev⟩).1 with
        | none => (perform sh a ⟨c, ev⟩).1 = .ok () ∧ (perform sh a ⟨c, ev⟩).2.cwd = a.cwdAfter c
        | some e => (perform sh a ⟨c, ev⟩).1 = .error e) := by
  unfold perform doAction
  by_cases h : sh.works ev a = true
  · simp only [h, if_true]
    exact ⟨by cases a <;> rfl, trivial, trivial⟩
  · simp only [h]
    exact ⟨rfl, rfl⟩

theorem does_perform (a : FileAction) (c : Str) : Does sh (perform sh a) c (a.cwdAfter c) [.act a] :=
  does_one fun ev => perform_step a c ev

theorem does_enter (d c : Str) : Does sh (perform sh (.enter d)) c d [.act (.enter d)] :=
  does_perform (.enter d) c

theorem does_call (cmd c : Str) : Does sh (processCall sh cmd) c c [.run cmd] := by
  refine does_one fun ev => ?_
  unfold processCall subprocessCall Script.andThen Script.when doStep
  by_cases h : sh.run ev c cmd = 0
  · simp only [h]
    exact ⟨rfl, rfl, rfl⟩
  · simp only [ne_eq, h, not_false_eq_true, decide_true, if_true, if_false]
    exact ⟨rfl, rfl⟩

theorem does_callAndShow (cmd file c : Str) :
    Does sh (callAndShow sh cmd file) c c [.runAndShow cmd file] := by
  refine does_one fun ev => ?_
  generalize hr : sh.run ev c cmd = code
  have e0 : callAndShow sh cmd file ⟨c, ev⟩ =
      (perform sh (.show file) ;; Script.when (decide (code ≠ 0)) (.exit code))
        ⟨c, ev ++ [.ran c cmd code]⟩ := by
    unfold callAndShow subprocessCall Script.andThen
    simp only [hr]
  rw [e0]
  unfold doStep Script.seq Script.andThen perform doAction
  simp only [hr]
  by_cases hw : sh.works (ev ++ [.ran c cmd code]) (.show file) = true
  · simp only [hw, if_true]
    by_cases h : code = 0
    · subst h
      exact ⟨rfl, rfl, rfl⟩
    · unfold Script.when
      simp only [ne_eq, h, not_false_eq_true, decide_true, if_true, if_false]
      exact ⟨rfl, rfl⟩
  · simp only [hw]
    exact ⟨rfl, rfl⟩

theorem does_rmF (d c : Str) : Does sh (pathRmF sh d) c c [.clear d] := by
  refine does_one fun ev => ?_
  have h1 : pathRmF sh d ⟨c, ev⟩ =
      if sh.isDir ev d then perform sh (.remove d) ⟨c, ev⟩ else (.ok (), ⟨c, ev⟩) := by
    unfold pathRmF Script.when
    by_cases h : sh.isDir ev d = true <;> simp [h, Script.skip]
  have h2 : doStep sh ⟨c, ev⟩ (.clear d) =
      if sh.isDir ev d then doAction sh (.remove d) ⟨c, ev⟩ else (none, ⟨c, ev⟩) := rfl
  rw [h1, h2]
  by_cases h : sh.isDir ev d = true
  · rw [if_pos h, if_pos h]
    exact perform_step (.remove d) c ev
  · rw [if_neg h, if_neg h]
    exact ⟨rfl, rfl, rfl⟩

theorem does_mkdirP (d c : Str) : Does sh (pathMkdirP sh d) c c [.ensure d] := by
  refine does_one fun ev => ?_
  have h1 : pathMkdirP sh d ⟨c, ev⟩ =
      if sh.isDir ev d then (.ok (), ⟨c, ev⟩) else perform sh (.make d) ⟨c, ev⟩ := by
    unfold pathMkdirP Script.when
    by_cases h : sh.isDir ev d = true <;> simp [h, Script.skip]
  have h2 : doStep sh ⟨c, ev⟩ (.ensure d) =
      if sh.isDir ev d then (none, ⟨c, ev⟩) else doAction sh (.make d) ⟨c, ev⟩ := rfl
  rw [h1, h2]
  by_cases h : sh.isDir ev d = true
  · rw [if_pos h, if_pos h]
    exact ⟨rfl, rfl, rfl⟩
  · rw [if_neg h, if_neg h]
    exact perform_step (.make d) c ev

theorem does_returning {p : Script Unit} {c c1 : Str} {P : List ScriptStep} (hp : Does sh p c c1 P) :
    Does sh (returning sh p) c c (P ++ [.act (.enter c)]) :=
  fun ev => does_seq hp (does_enter c c1) ev

theorem slashed_join (r x : Str) (hx : x.head? ≠ some '/') : osPathJoin r x = slashed r ++ x := by
  unfold osPathJoin slashed
  rw [if_neg hx]
  by_cases h : r = [] ∨ r.getLast? = some '/'
  · rw [if_pos h, if_pos h]
  · rw [if_neg h, if_neg h]
    have : "/".toList = ['/'] := by decide +kernel
    rw [this, List.append_assoc]
    rfl

theorem join_bin (r x : Str) (hx : x.head? ≠ some '/') :
    osPathJoin (osPathJoin r "bin".toList) x = slashed r ++ "bin/".toList ++ x := by
  rw [slashed_join r _ (by decide +kernel), osPathJoin_rooted (projectRoot_append ?_) hx]
  · have : "bin/".toList = "bin".toList ++ ['/'] := by decide +kernel
    rw [this]
    simp only [List.append_assoc, List.singleton_append]
  · unfold ProjectRoot
    decide +kernel

theorem does_compiler (r c : Str) (b : Bool) :
    Does sh (useLlvmClang sh r b) c c (if b then [.compiler r] else []) := by
  refine does_when b fun _ => does_one fun ev => ?_
  have e1 := join_bin r "clang".toList (by decide +kernel)
  have e2 := join_bin r "clang++".toList (by decide +kernel)
  unfold Script.when doStep
  rw [e1, e2]
  simp only
  by_cases h : sh.pathExists ev (slashed r ++ "bin/".toList ++ "clang".toList) = true
  · simp only [h, if_true]
    exact ⟨trivial, trivial, trivial⟩
  · simp only [h, Bool.false_eq_true, if_false, List.append_nil]
    exact ⟨rfl, rfl, rfl⟩

theorem does_builder (noNinja : Bool) (j : Int) (c : Str) :
    Does sh (makeOrNinja sh noNinja j) c c [.run (builder sh.cpuCount noNinja j)] := by
  rw [makeOrNinja_eq]
  exact does_call _ c

/-! ## The scripts -/

theorem chosen_eq (o : Option OclintModule) : chosenModules o = partsOf o := by
  cases o <;> rfl

/-- The file operations `build` may do. -/
def buildAllowed (root : Str) (a : BuildArgs) : FileAction → Prop :=
  WritesOnly ((partsOf a.moduleName).map (workDir root [])) []

theorem mem_dirs {root suffix : Str} {o : Option OclintModule} {m : OclintModule} (hm : m ∈ partsOf o) :
    workDir root suffix m ∈ (partsOf o).map (workDir root suffix) := List.mem_map_of_mem hm

theorem flatMap_nil_eq {α β : Type} (l : List α) : (l.flatMap fun _ => ([] : List β)) = [] := by
  induction l with
  | nil => rfl
  | cons a l ih => rw [List.flatMap_cons, ih]; rfl

theorem follows_clean {f : OclintModule → Str} (b : Bool) (o : Option OclintModule) (c : Str)
    (h : ∀ m ∈ partsOf o, A (.remove (f m))) :
    Follows sh A (Script.when b (Script.each (chosenModules o) fun m => pathRmF sh (f m))) c c [] := by
  have h1 : Follows sh A (Script.each (chosenModules o) fun m => pathRmF sh (f m)) c c
      ((partsOf o).flatMap fun _ => []) := by
    rw [chosen_eq]
    exact follows_each (partsOf o) fun m hm => follows_rmF (f m) c (h m hm)
  rw [flatMap_nil_eq] at h1
  have h2 := follows_when b fun _ => h1
  rwa [ite_self] at h2

theorem follows_build {root : Str} (hr : ProjectRoot root) (a : BuildArgs) (c : Str) :
    Follows sh (buildAllowed root a) (buildScript sh root a) c c
      (buildPlan sh.cpuCount root a (partsOf a.moduleName)) := by
  unfold buildScript
  refine follows_seq (follows_useLlvmClang _ c _) (follows_seq (follows_clean _ _ c ?_) ?_)
  · intro m hm
    rw [buildDir_eq hr]
    exact mem_dirs hm
  · rw [chosen_eq]
    refine follows_each (partsOf a.moduleName) fun m hm => ?_
    unfold buildModule
    rw [buildDir_eq hr, buildCommand_eq hr]
    exact follows_returning (follows_seq (follows_mkdirP _ c (mem_dirs hm)) (follows_seq
      (follows_enter _ c trivial) (follows_seq (follows_call _ _) (follows_builder _ _ _)))) trivial

theorem does_clean {f : OclintModule → Str} (b : Bool) (o : Option OclintModule) (c : Str) :
    Does sh (Script.when b (Script.each (chosenModules o) fun m => pathRmF sh (f m))) c c
      (if b then (partsOf o).map fun m => .clear (f m) else []) := by
  refine does_when b fun _ => ?_
  rw [chosen_eq]
  exact does_map _ fun m => does_rmF (f m) c

theorem does_build {root : Str} (hr : ProjectRoot root) (a : BuildArgs) (c : Str) :
    Does sh (buildScript sh root a) c c (buildSteps sh.cpuCount root c a) := by
  unfold buildScript buildSteps
  rw [List.append_assoc]
  refine does_seq (does_compiler _ c _) (does_seq (c1 := c) ?_ ?_)
  · simp only [buildDir_eq hr]
    exact does_clean _ _ c
  · rw [chosen_eq]
    refine does_each (partsOf a.moduleName) fun m _ => ?_
    unfold buildModule
    rw [buildDir_eq hr, buildCommand_eq hr]
    exact does_returning (does_seq (does_mkdirP _ c) (does_seq (does_enter _ c)
      (does_seq (does_call _ _) (does_builder _ _ _))))

/-! ### `test` -/

theorem testResults_eq {root : Str} (hr : ProjectRoot root) (m : OclintModule) :
    testResultPath root m = testResults root m := by
  unfold testResultPath testResults
  rw [testDir_eq hr, osPathJoin_rooted (projectRoot_workDir root _ m (.inr (by
    unfold ProjectRoot; decide +kernel))) (by decide +kernel)]
  have : "/testresults.txt".toList = '/' :: "testresults.txt".toList := by decide +kernel
  rw [this]

theorem ctest_eq {root : Str} (hr : ProjectRoot root) (m : OclintModule) :
    "ctest --output-on-failure > ".toList ++ testResultPath root m = (ctest root m).2 := by
  rw [testResults_eq hr]
  unfold ctest testResults
  generalize workDir root "-test".toList m ++ "/testresults.txt".toList = f
  have : "ctest --output-on-failure > ".toList =
    "ctest".toList ++ ' ' :: ("--output-on-failure".toList ++ ' ' :: (">".toList ++ [' '])) := by
    decide +kernel
  rw [this]
  show _ = "ctest".toList ++ ' ' :: ("--output-on-failure".toList ++ ' ' :: (">".toList ++ ' ' :: f))
  simp only [List.append_assoc, List.cons_append, List.nil_append]

theorem headersDir_eq (t : Str) :
    osPathJoin (osPathJoin t "oclint-rules-test".toList) "clang".toList = headersDir t := by
  unfold headersDir
  rw [slashed_join t _ (by decide +kernel), osPathJoin_rooted (projectRoot_append (by
    unfold ProjectRoot; decide +kernel)) (by decide +kernel)]
  have : "oclint-rules-test/clang".toList = "oclint-rules-test".toList ++ '/' :: "clang".toList := by
    decide +kernel
  rw [this]
  simp only [List.append_assoc]

theorem headersSource_eq {root : Str} (hr : ProjectRoot root) :
    osPathJoin (osPathJoin (osPathJoin (osPathJoin (clangInstallDir root) "lib".toList)
      "clang".toList) llvmMajorVersion) "include".toList =
      root ++ "/build/llvm-install/lib/clang/21/include".toList := by
  have hp : ∀ (a x : Str), ProjectRoot x → ProjectRoot (a ++ '/' :: x) := by
    intro a x hx
    rw [← List.singleton_append, ← List.append_assoc]
    exact projectRoot_append hx
  have p1 : ProjectRoot "lib".toList := by unfold ProjectRoot; decide +kernel
  have p2 : ProjectRoot "clang".toList := by unfold ProjectRoot; decide +kernel
  have p3 : ProjectRoot llvmMajorVersion := by unfold ProjectRoot llvmMajorVersion; decide +kernel
  have p0 : ProjectRoot "llvm-install".toList := by unfold ProjectRoot; decide +kernel
  unfold clangInstallDir
  rw [moduleBuildDir_eq hr (by decide +kernel),
    osPathJoin_rooted (projectRoot_append p0) (by decide +kernel),
    osPathJoin_rooted (hp _ _ p1) (by decide +kernel), osPathJoin_rooted (hp _ _ p2) (by decide +kernel),
    osPathJoin_rooted (hp _ _ p3) (by decide +kernel)]
  have : "/build/llvm-install/lib/clang/21/include".toList = "/build/".toList ++ ("llvm-install".toList ++
      '/' :: ("lib".toList ++ '/' :: ("clang".toList ++ '/' :: (llvmMajorVersion ++
        '/' :: "include".toList)))) := by
    unfold llvmMajorVersion
    decide +kernel
  rw [this]
  simp only [List.append_assoc, List.cons_append]

/-- The file operations `test` may do. -/
def testAllowed (tempDir root : Str) (a : TestArgs) : FileAction → Prop :=
  WritesOnly (headersDir tempDir :: (partsOf a.moduleName).map (workDir root "-test".toList)) []

theorem follows_headers {root t : Str} (a : TestArgs) (c : Str) (h : sh.tempDir = t) :
    Follows sh (testAllowed t root a) (installClangHeaders sh root) c c [] := by
  unfold installClangHeaders
  rw [headersDir_eq, h]
  have h1 : testAllowed t root a (.remove (headersDir t)) := List.mem_cons_self
  have h2 : ∀ src, testAllowed t root a (.copyTree src (headersDir t)) := fun _ => List.mem_cons_self
  exact follows_seq (follows_rmF _ c h1) (follows_perform (.copyTree _ _) c (h2 _))

theorem follows_test {root : Str} (hr : ProjectRoot root) (a : TestArgs) (ha : a.showResults = false)
    (c : Str) :
    Follows sh (testAllowed sh.tempDir root a) (testScript sh root a) c c
      (testPlan sh.cpuCount root a (partsOf a.moduleName)) := by
  unfold testScript
  rw [ha]
  refine follows_seq (follows_useLlvmClang _ c _) (follows_seq (follows_skip c)
    (follows_seq (follows_clean _ _ c ?_) ?_))
  · intro m hm
    rw [testDir_eq hr]
    exact List.mem_cons_of_mem _ (mem_dirs hm)
  · rw [chosen_eq]
    refine follows_each (partsOf a.moduleName) fun m hm => ?_
    unfold testModule
    rw [testDir_eq hr, testCommand_eq hr, ctest_eq hr]
    have hc : ∀ d, d = workDir root "-test".toList m → Follows sh (testAllowed sh.tempDir root a)
        (Script.when (!a.asDep) (Script.when (decide (m = .rules)) (installClangHeaders sh root) ;;
          callAndShow sh (ctest root m).2 (testResultPath root m))) d d
        (if a.asDep then [] else [ctest root m]) := by
      intro d hd
      have h1 := follows_when (sh := sh) (A := testAllowed sh.tempDir root a) (decide (m = .rules))
        fun _ => follows_headers a d rfl
      have h2 := follows_when (!a.asDep) fun _ => follows_seq h1
        (follows_callAndShow (sh := sh) (ctest root m).2 (testResultPath root m) d trivial)
      have e : (if (!a.asDep) = true then
          (if decide (m = .rules) = true then [] else []) ++ [(d, (ctest root m).2)] else []) =
          if a.asDep then [] else [ctest root m] := by
        cases a.asDep with
        | true => rfl
        | false =>
          rw [hd]
          simp only [ite_self, List.nil_append]
          rfl
      rwa [e] at h2
    have hmk : testAllowed sh.tempDir root a (.make (workDir root "-test".toList m)) :=
      List.mem_cons_of_mem _ (mem_dirs hm)
    have := follows_seq (follows_mkdirP _ c hmk)
      (follows_seq (follows_enter _ c trivial) (follows_seq (follows_call (unwords (testWords root a m)) _)
        (follows_seq (follows_builder a.noNinja a.j _) (hc _ rfl))))
    exact follows_returning this trivial

theorem does_headers {root : Str} (hr : ProjectRoot root) (c : Str) :
    Does sh (installClangHeaders sh root) c c [.clear (headersDir sh.tempDir), .act (.copyTree
        (root ++ "/build/llvm-install/lib/clang/21/include".toList) (headersDir sh.tempDir))] := by
  unfold installClangHeaders
  rw [headersDir_eq, headersSource_eq hr]
  exact does_seq (does_rmF _ c) (does_perform (.copyTree _ _) c)

theorem does_testModule {root : Str} (hr : ProjectRoot root) (a : TestArgs) (m : OclintModule) (c : Str) :
    Does sh (testModule sh root a m) c c
      ([.ensure (workDir root "-test".toList m), .act (.enter (workDir root "-test".toList m)),
        .run (unwords (testWords root a m)), .run (builder sh.cpuCount a.noNinja a.j)]
      ++ (if a.asDep then [] else
        (if m = .rules then [.clear (headersDir sh.tempDir), .act (.copyTree
          (root ++ "/build/llvm-install/lib/clang/21/include".toList) (headersDir sh.tempDir))] else [])
        ++ [.runAndShow (ctest root m).2 (testResults root m)])
      ++ [.act (.enter c)]) := by
  unfold testModule
  rw [testDir_eq hr, testCommand_eq hr, ctest_eq hr, testResults_eq hr]
  generalize workDir root "-test".toList m = d
  have h1 := does_when (sh := sh) (decide (m = .rules)) fun _ => does_headers hr d
  have h2 := does_when (!a.asDep) fun _ => does_seq h1
    (does_callAndShow (sh := sh) (ctest root m).2 (testResults root m) d)
  have h3 := does_seq (does_mkdirP d c) (does_seq (does_enter d c)
    (does_seq (does_call (unwords (testWords root a m)) d)
      (does_seq (does_builder a.noNinja a.j d) h2)))
  have h4 := does_returning h3
  have e : (if (!a.asDep) = true then
      (if decide (m = .rules) = true then [ScriptStep.clear (headersDir sh.tempDir), .act (.copyTree
        (root ++ "/build/llvm-install/lib/clang/21/include".toList) (headersDir sh.tempDir))] else [])
        ++ [.runAndShow (ctest root m).2 (testResults root m)] else []) =
      (if a.asDep then [] else
        (if m = .rules then [.clear (headersDir sh.tempDir), .act (.copyTree
          (root ++ "/build/llvm-install/lib/clang/21/include".toList) (headersDir sh.tempDir))] else [])
        ++ [.runAndShow (ctest root m).2 (testResults root m)]) := by
    cases a.asDep with
    | true => rfl
    | false => simp only [Bool.not_false, if_true, Bool.false_eq_true, if_false, decide_eq_true_eq]
  rw [e] at h4
  exact h4

/-- What is left of a script that ends here. -/
theorem does_stop {p q : Script Unit} {c c1 : Str} {P : List ScriptStep} (hp : Does sh p c c1 P)
    (ev : List ScriptEvent) :
    ((exitStatus (((p ;; .exit 0) ;; q) ⟨c, ev⟩).1), (((p ;; .exit 0) ;; q) ⟨c, ev⟩).2) =
      carryOut sh P ⟨c, ev⟩ := by
  have h := (hp ev).1 []
  rw [List.append_nil] at h
  rw [h]
  unfold Script.seq Script.andThen
  cases hr : p ⟨c, ev⟩ with
  | mk r s => cases r <;> rfl

theorem seq_assoc (p q r : Script Unit) : ((p ;; q) ;; r) = (p ;; q ;; r) := by
  funext s
  unfold Script.seq Script.andThen
  cases p s with
  | mk x s' => cases x <;> rfl

theorem does_stop' {p q r : Script Unit} {c c1 c2 : Str} {P Q : List ScriptStep} (hp : Does sh p c c1 P)
    (hq : Does sh q c1 c2 Q) (ev : List ScriptEvent) :
    ((exitStatus ((p ;; (q ;; .exit 0) ;; r) ⟨c, ev⟩).1), ((p ;; (q ;; .exit 0) ;; r) ⟨c, ev⟩).2) =
      carryOut sh (P ++ Q) ⟨c, ev⟩ := by
  have := does_stop (q := r) (does_seq hp hq) ev
  rwa [seq_assoc p q, seq_assoc p] at this

theorem does_exit {p : Script Unit} {c c1 : Str} {P : List ScriptStep} (hp : Does sh p c c1 P)
    (ev : List ScriptEvent) :
    (exitStatus (p ⟨c, ev⟩).1, (p ⟨c, ev⟩).2) = carryOut sh P ⟨c, ev⟩ := by
  have h := (hp ev).1 []
  rw [List.append_nil] at h
  rw [h]
  cases hr : p ⟨c, ev⟩ with
  | mk r s => cases r <;> rfl

theorem test_steps {root : Str} (hr : ProjectRoot root) (a : TestArgs) (c : Str)
    (ev : List ScriptEvent) :
    (exitStatus (testScript sh root a ⟨c, ev⟩).1, (testScript sh root a ⟨c, ev⟩).2) =
      carryOut sh (testSteps sh.cpuCount sh.tempDir root c a) ⟨c, ev⟩ := by
  unfold testScript testSteps
  have h0 := does_compiler (sh := sh) a.llvmRoot c a.useLlvmClang
  cases ha : a.showResults with
  | true =>
    simp only [if_true, Script.when]
    have h1 : Does sh (Script.each (chosenModules a.moduleName)
        fun m => perform sh (.show (testResultPath root m))) c c
        ((partsOf a.moduleName).map fun m => .act (.show (testResults root m))) := by
      rw [chosen_eq]
      refine does_map _ fun m => ?_
      rw [testResults_eq hr]
      exact does_perform (.show _) c
    exact does_stop' h0 h1 ev
  | false =>
    simp only [Bool.false_eq_true, if_false]
    refine does_exit (does_seq (c2 := c) h0 (does_seq (c2 := c) (P := []) (does_skip c)
      (does_seq (c1 := c) ?_ ?_))) ev
    · simp only [testDir_eq hr]
      exact does_clean _ _ c
    · rw [chosen_eq]
      exact does_each (partsOf a.moduleName) fun m _ => does_testModule hr a m c

/-! ### `dogFooding` -/

theorem projectRoot_dog (root : Str) (m : OclintModule) :
    ProjectRoot (workDir root "-dogfooding".toList m) :=
  projectRoot_workDir root _ m (.inr (by unfold ProjectRoot; decide +kernel))

theorem projectRoot_source (root : Str) (m : OclintModule) : ProjectRoot (sourceDir root m) := by
  unfold sourceDir
  refine projectRoot_append ?_
  unfold ProjectRoot
  cases m <;> decide +kernel

theorem dogResults_eq {root : Str} (hr : ProjectRoot root) (m : OclintModule) :
    dogResultPath root m = dogResults root m := by
  unfold dogResultPath dogResults
  rw [dogDir_eq hr, osPathJoin_rooted (projectRoot_dog root m) (by decide +kernel)]
  have : "/dogfooding_results.txt".toList = '/' :: "dogfooding_results.txt".toList := by decide +kernel
  rw [this]

theorem compileCommands_eq {d : Str} (hd : ProjectRoot d) :
    osPathJoin d "compile_commands.json".toList = d ++ "/compile_commands.json".toList := by
  rw [osPathJoin_rooted hd (by decide +kernel)]
  have : "/compile_commands.json".toList = '/' :: "compile_commands.json".toList := by decide +kernel
  rw [this]

theorem check_eq {root : Str} (hr : ProjectRoot root) (a : DogArgs) (m : OclintModule) :
    dogfoodingCommand root a m = (check root a m).2 := by
  have e0 : bundleRootDir root = moduleBuildDir root "oclint-release".toList := by
    unfold bundleRootDir oclintModuleBuildDir
    have : "oclint-".toList ++ "release".toList = "oclint-release".toList := by decide +kernel
    rw [this]
  unfold dogfoodingCommand check
  rw [dogResults_eq hr, e0]
  unfold dogResults
  have p0 : ProjectRoot "oclint-release".toList := by unfold ProjectRoot; decide +kernel
  have p1 : ProjectRoot (root ++ "/build/".toList ++ "oclint-release".toList ++ '/' :: "bin".toList) := by
    rw [← List.singleton_append, ← List.append_assoc]
    refine projectRoot_append ?_
    unfold ProjectRoot
    decide +kernel
  rw [moduleBuildDir_eq hr (by decide +kernel),
    osPathJoin_rooted (projectRoot_append p0) (by decide +kernel), osPathJoin_rooted p1 (by decide +kernel)]
  generalize workDir root "-dogfooding".toList m ++ "/dogfooding_results.txt".toList = f
  have e1 : "/build/oclint-release/bin/oclint-json-compilation-database".toList =
      "/build/".toList ++ ("oclint-release".toList ++ '/' :: ("bin".toList ++
        '/' :: "oclint-json-compilation-database".toList)) := by decide +kernel
  have e2 : " -- -max-priority-1=0 -max-priority-2=0 -max-priority-3=0".toList =
      ' ' :: ("--".toList ++ ' ' :: ("-max-priority-1=0".toList ++ ' ' :: ("-max-priority-2=0".toList ++
        ' ' :: "-max-priority-3=0".toList))) := by decide +kernel
  have e3 : " -enable-clang-static-analyzer".toList = ' ' :: "-enable-clang-static-analyzer".toList := by
    decide +kernel
  have e4 : " -o ".toList = ' ' :: ("-o".toList ++ [' ']) := by decide +kernel
  rw [e1, e2, e3, e4]
  cases a.staticAnalyzer with
  | true =>
    simp only [if_true, unwords, List.cons_append, List.nil_append, List.append_assoc]
  | false =>
    simp only [Bool.false_eq_true, if_false, unwords, List.cons_append, List.nil_append,
      List.append_assoc]

/-- The file operations `dogFooding` may do. -/
def dogAllowed (root : Str) (a : DogArgs) : FileAction → Prop :=
  WritesOnly ((partsOf a.moduleName).map (workDir root "-dogfooding".toList))
    ((partsOf a.moduleName).map fun m => sourceDir root m ++ "/compile_commands.json".toList)

theorem follows_dog {root : Str} (hr : ProjectRoot root) (a : DogArgs) (ha : a.showResults = false)
    (c : Str) :
    Follows sh (dogAllowed root a) (dogScript sh root a) c c (dogPlan root a (partsOf a.moduleName)) := by
  unfold dogScript
  rw [ha]
  refine follows_seq (follows_useLlvmClang _ c _) (follows_seq (follows_skip c) ?_)
  rw [chosen_eq]
  refine follows_each (partsOf a.moduleName) fun m hm => ?_
  unfold dogBuildModule dogfooding
  rw [dogDir_eq hr, dogCommand_eq hr, check_eq hr, sourceDir_eq hr,
    compileCommands_eq (projectRoot_source root m)]
  have h1 : dogAllowed root a (.remove (workDir root "-dogfooding".toList m)) := mem_dirs hm
  have h2 : dogAllowed root a (.make (workDir root "-dogfooding".toList m)) := mem_dirs hm
  have h3 : ∀ src, dogAllowed root a
      (.copy src (sourceDir root m ++ "/compile_commands.json".toList)) := fun _ =>
    List.mem_map.2 ⟨m, hm, rfl⟩
  have g1 := follows_returning (follows_seq (follows_mkdirP (sh := sh) _ c h2) (follows_seq
    (follows_enter (workDir root "-dogfooding".toList m) c trivial)
    (follows_call (unwords (dogWords root a m)) _))) trivial
  have g2 := follows_returning (follows_seq (follows_enter (sh := sh) (A := dogAllowed root a)
    (sourceDir root m) c trivial) (follows_callAndShow (check root a m).2 (dogResultPath root m) _ trivial))
    trivial
  exact follows_seq (follows_rmF _ c h1) (follows_seq (follows_seq g1
    (follows_perform (.copy _ _) c (h3 _))) g2)

theorem dog_steps {root : Str} (hr : ProjectRoot root) (a : DogArgs) (c : Str)
    (ev : List ScriptEvent) :
    (exitStatus (dogScript sh root a ⟨c, ev⟩).1, (dogScript sh root a ⟨c, ev⟩).2) =
      carryOut sh (dogSteps root c a) ⟨c, ev⟩ := by
  unfold dogScript dogSteps
  have h0 := does_compiler (sh := sh) a.llvmRoot c a.useLlvmClang
  cases ha : a.showResults with
  | true =>
    simp only [if_true, Script.when]
    have h1 : Does sh (Script.each (chosenModules a.moduleName)
        fun m => perform sh (.show (dogResultPath root m))) c c
        ((partsOf a.moduleName).map fun m => .act (.show (dogResults root m))) := by
      rw [chosen_eq]
      refine does_map _ fun m => ?_
      rw [dogResults_eq hr]
      exact does_perform (.show _) c
    exact does_stop' h0 h1 ev
  | false =>
    simp only [Bool.false_eq_true, if_false]
    refine does_exit (does_seq (c2 := c) h0 (does_seq (c2 := c) (P := []) (does_skip c) ?_)) ev
    rw [chosen_eq]
    refine does_each (partsOf a.moduleName) fun m _ => ?_
    unfold dogBuildModule dogfooding
    rw [dogDir_eq hr, dogCommand_eq hr, check_eq hr, sourceDir_eq hr, dogResults_eq hr,
      compileCommands_eq (projectRoot_source root m), compileCommands_eq (projectRoot_dog root m)]
    have g1 := does_returning (does_seq (does_mkdirP (sh := sh) (workDir root "-dogfooding".toList m) c)
      (does_seq (does_enter (workDir root "-dogfooding".toList m) c)
        (does_call (unwords (dogWords root a m)) _)))
    have g2 := does_returning (does_seq (does_enter (sh := sh) (sourceDir root m) c)
      (does_callAndShow (check root a m).2 (dogResults root m) _))
    exact does_seq (does_rmF _ c) (does_seq (does_seq g1 (does_perform (.copy _ _) c)) g2)

/-! ### `ci` -/

theorem python_eq (p : Str) (ws : List Str) (hw : ws ≠ []) :
    p ++ " ".toList ++ unwords ws = unwords (p :: ws) := by
  have : " ".toList = [' '] := by decide +kernel
  rw [this]
  cases ws with
  | nil => exact absurd rfl hw
  | cons w ws =>
    show _ = p ++ ' ' :: unwords (w :: ws)
    rw [List.append_assoc]
    rfl

/-- The number of jobs `ci` passes on. -/
def ciJobs (cpus : Nat) (j : Int) : Str := if j = 0 then decimal cpus else decimalInt j

theorem callPython_eq (ws : List Str) (hw : ws ≠ []) (text : Str) (ht : text = unwords ws) :
    callPython sh text = processCall sh (unwords (sh.python :: ws)) := by
  unfold callPython
  rw [ht, python_eq _ _ hw]

theorem callPython_j (ws : List Str) (hw : ws ≠ []) (text : Str) (ht : text = unwords ws) (j : Int) :
    callPython sh (text ++ jFlag sh j) =
      processCall sh (unwords (sh.python :: (ws ++ ["-j".toList, ciJobs sh.cpuCount j]))) := by
  refine callPython_eq _ (by simp) _ ?_
  rw [unwords_append _ _ hw (by simp), jFlag_eq, ht]
  unfold ciJobs
  generalize (if j = 0 then decimal sh.cpuCount else decimalInt j) = n
  have e1 : " -j ".toList = ' ' :: ("-j".toList ++ [' ']) := by decide +kernel
  have e2 : unwords ["-j".toList, n] = "-j".toList ++ ' ' :: n := rfl
  rw [e1, e2]
  simp only [List.append_assoc, List.cons_append, List.nil_append]

/-- A sequence of commands is both a plan and a list of steps. -/
def Calls (sh : Shell) (p : Script Unit) (cmds : List Str) : Prop :=
  ∀ (A : FileAction → Prop) (c : Str), Follows sh A p c c (cmds.map fun x => (c, x)) ∧
    Does sh p c c (cmds.map (.run ·))

theorem calls_skip : Calls sh .skip [] := fun _ c => ⟨follows_skip c, does_skip c⟩

theorem calls_call (cmd : Str) : Calls sh (processCall sh cmd) [cmd] :=
  fun _ c => ⟨follows_call cmd c, does_call cmd c⟩

theorem calls_seq {p q : Script Unit} {P Q : List Str} (hp : Calls sh p P) (hq : Calls sh q Q) :
    Calls sh (p ;; q) (P ++ Q) := by
  intro A c
  rw [List.map_append, List.map_append]
  exact ⟨follows_seq (hp A c).1 (hq A c).1, does_seq (hp A c).2 (hq A c).2⟩

theorem calls_if {p q : Script Unit} {P Q : List Str} (b : Bool) (hp : b = true → Calls sh p P)
    (hq : b = false → Calls sh q Q) : Calls sh (if b then p else q) (if b then P else Q) := by
  cases b with
  | true => exact hp rfl
  | false => exact hq rfl

theorem calls_when {p : Script Unit} {P : List Str} (b : Bool) (hp : b = true → Calls sh p P) :
    Calls sh (Script.when b p) (if b then P else []) := calls_if b hp fun _ => calls_skip

theorem calls_clones (darwin : Bool) :
    Calls sh (processCall sh ("git clone ".toList ++
        "https://github.com/oclint/oclint-json-compilation-database.git".toList) ;;
      Script.when darwin (processCall sh ("git clone ".toList ++
        "https://github.com/oclint/oclint-xcodebuild.git".toList))) (ciClones darwin) := by
  have e : ∀ x : Str, "git clone ".toList ++ x = unwords ["git".toList, "clone".toList, x] := by
    intro x
    have : "git clone ".toList = "git".toList ++ ' ' :: ("clone".toList ++ [' ']) := by decide +kernel
    rw [this]
    show _ = "git".toList ++ ' ' :: ("clone".toList ++ ' ' :: x)
    simp only [List.append_assoc, List.cons_append, List.nil_append]
  rw [e, e]
  exact calls_seq (calls_call _) (calls_when darwin fun _ => calls_call _)

/-- What `ci -setup` does after it has fetched the repositories. -/
def ciSetupCalls (sh : Shell) (a : CiArgs) : Script Unit :=
  callPython sh "clang".toList ;;
  Script.when (!a.release) (
    callPython sh "googleTest co".toList ;;
    callPython sh ("googleTest build -clean".toList ++ jFlag sh a.j))

/-- What `ci` does after the preparation. -/
def ciMainCalls (sh : Shell) (a : CiArgs) : Script Unit :=
  (if a.release then callPython sh ("build -clean -release".toList ++ jFlag sh a.j)
    else callPython sh ("test -clean".toList ++ jFlag sh a.j) ;;
      callPython sh ("build -clean".toList ++ jFlag sh a.j)) ;;
  callPython sh "bundle".toList ;;
  Script.when ((sh.isDarwin || sh.isLinux) && !a.release)
    (callPython sh "dogFooding -enable-clang-static-analyzer".toList) ;;
  Script.when a.archive (
    if a.release then callPython sh "bundle -archive -release".toList
    else callPython sh "bundle -archive".toList)

theorem calls_setup (a : CiArgs) : Calls sh (ciSetupCalls sh a)
    ([unwords (sh.python :: ["clang".toList])]
    ++ (if a.release then [] else [unwords (sh.python :: ["googleTest".toList, "co".toList]),
      unwords (sh.python :: ["googleTest".toList, "build".toList, "-clean".toList, "-j".toList,
        ciJobs sh.cpuCount a.j])])) := by
  unfold ciSetupCalls
  rw [callPython_eq ["clang".toList] (by simp) "clang".toList rfl,
    callPython_eq ["googleTest".toList, "co".toList] (by simp) "googleTest co".toList (by decide +kernel),
    callPython_j ["googleTest".toList, "build".toList, "-clean".toList] (by simp)
      "googleTest build -clean".toList (by decide +kernel)]
  have h := calls_when (!a.release) fun _ => calls_seq
    (calls_call (sh := sh) (unwords (sh.python :: ["googleTest".toList, "co".toList])))
    (calls_call (sh := sh) (unwords (sh.python :: (["googleTest".toList, "build".toList, "-clean".toList] ++
      ["-j".toList, ciJobs sh.cpuCount a.j]))))
  have := calls_seq (calls_call (sh := sh) (unwords (sh.python :: ["clang".toList]))) h
  cases hr : a.release with
  | true => rw [hr] at this; exact this
  | false => rw [hr] at this; exact this

theorem calls_main (a : CiArgs) : Calls sh (ciMainCalls sh a)
    ((if a.release then [unwords (sh.python :: ["build".toList, "-clean".toList, "-release".toList,
        "-j".toList, ciJobs sh.cpuCount a.j])]
      else [unwords (sh.python :: ["test".toList, "-clean".toList, "-j".toList, ciJobs sh.cpuCount a.j]),
        unwords (sh.python :: ["build".toList, "-clean".toList, "-j".toList, ciJobs sh.cpuCount a.j])])
    ++ ([unwords (sh.python :: ["bundle".toList])]
    ++ ((if (sh.isDarwin || sh.isLinux) ∧ ¬ a.release then
      [unwords (sh.python :: ["dogFooding".toList, "-enable-clang-static-analyzer".toList])] else [])
    ++ (if a.archive then [unwords (sh.python :: (["bundle".toList, "-archive".toList]
      ++ if a.release then ["-release".toList] else []))] else [])))) := by
  unfold ciMainCalls
  rw [callPython_eq ["bundle".toList] (by simp) "bundle".toList rfl,
    callPython_eq ["bundle".toList, "-archive".toList] (by simp) "bundle -archive".toList (by decide +kernel),
    callPython_eq ["bundle".toList, "-archive".toList, "-release".toList] (by simp) "bundle -archive -release".toList (by decide +kernel),
    callPython_eq ["dogFooding".toList, "-enable-clang-static-analyzer".toList] (by simp)
      "dogFooding -enable-clang-static-analyzer".toList (by decide +kernel),
    callPython_j ["build".toList, "-clean".toList, "-release".toList] (by simp)
      "build -clean -release".toList (by decide +kernel),
    callPython_j ["test".toList, "-clean".toList] (by simp)
      "test -clean".toList (by decide +kernel),
    callPython_j ["build".toList, "-clean".toList] (by simp)
      "build -clean".toList (by decide +kernel)]
  refine calls_seq (calls_if _ (fun _ => calls_call _) fun _ => calls_seq (calls_call _) (calls_call _))
    (calls_seq (calls_call _) (calls_seq ?_ (calls_when _ fun _ => ?_)))
  · have := calls_when ((sh.isDarwin || sh.isLinux) && !a.release) fun _ =>
      calls_call (sh := sh)
        (unwords (sh.python :: ["dogFooding".toList, "-enable-clang-static-analyzer".toList]))
    simpa only [Bool.and_eq_true, Bool.not_eq_true', Bool.not_eq_true] using this
  · cases a.release with
    | true => exact calls_call _
    | false => exact calls_call _

theorem ciScript_eq (root : Str) (a : CiArgs) :
    ciScript sh root a = (Script.when a.reset (ciReset sh root) ;; Script.when a.setup
      (returning sh (perform sh (.enter root) ;; processCall sh ("git clone ".toList ++
        "https://github.com/oclint/oclint-json-compilation-database.git".toList) ;;
      Script.when sh.isDarwin (processCall sh ("git clone ".toList ++
        "https://github.com/oclint/oclint-xcodebuild.git".toList))) ;; ciSetupCalls sh a) ;;
      ciMainCalls sh a) := rfl

theorem ciCalls_eq (a : CiArgs) :
    ciCalls sh.python sh.cpuCount (sh.isDarwin || sh.isLinux) a =
    (if a.setup then [unwords (sh.python :: ["clang".toList])]
    ++ (if a.release then [] else [unwords (sh.python :: ["googleTest".toList, "co".toList]),
      unwords (sh.python :: ["googleTest".toList, "build".toList, "-clean".toList, "-j".toList,
        ciJobs sh.cpuCount a.j])]) else []) ++
    ((if a.release then [unwords (sh.python :: ["build".toList, "-clean".toList, "-release".toList,
        "-j".toList, ciJobs sh.cpuCount a.j])]
      else [unwords (sh.python :: ["test".toList, "-clean".toList, "-j".toList, ciJobs sh.cpuCount a.j]),
        unwords (sh.python :: ["build".toList, "-clean".toList, "-j".toList, ciJobs sh.cpuCount a.j])])
    ++ ([unwords (sh.python :: ["bundle".toList])]
    ++ ((if (sh.isDarwin || sh.isLinux) ∧ ¬ a.release then
      [unwords (sh.python :: ["dogFooding".toList, "-enable-clang-static-analyzer".toList])] else [])
    ++ (if a.archive then [unwords (sh.python :: (["bundle".toList, "-archive".toList]
      ++ if a.release then ["-release".toList] else []))] else [])))) := by
  unfold ciCalls ciJobs
  simp only [List.append_assoc]

theorem follows_ci (root : Str) (a : CiArgs) (ha : a.reset = false) (c : Str) :
    Follows sh (WritesOnly [] []) (ciScript sh root a) c c
      (ciPlan sh.python sh.cpuCount sh.isDarwin (sh.isDarwin || sh.isLinux) root c a) := by
  rw [ciScript_eq, ha]
  unfold ciPlan
  rw [ciCalls_eq, List.map_append, ← List.append_assoc]
  have hm := ((calls_main (sh := sh) a) (WritesOnly [] []) c).1
  have hs := ((calls_setup (sh := sh) a) (WritesOnly [] []) c).1
  have hc := ((calls_clones (sh := sh) sh.isDarwin) (WritesOnly [] []) root).1
  have h1 := follows_when (sh := sh) (A := WritesOnly [] []) a.setup fun _ => follows_seq
    (follows_returning (c1 := root) (follows_seq (follows_enter root c trivial) hc) trivial) hs
  refine follows_seq (P := []) (follows_skip c) (follows_seq ?_ hm)
  cases hsu : a.setup with
  | true => rw [hsu] at h1; exact h1
  | false => exact follows_skip c

theorem ci_steps {root : Str} (hr : ProjectRoot root) (a : CiArgs) (c : Str) (ev : List ScriptEvent) :
    (exitStatus (ciScript sh root a ⟨c, ev⟩).1, (ciScript sh root a ⟨c, ev⟩).2) =
      carryOut sh (ciSteps sh.python sh.cpuCount sh.isDarwin (sh.isDarwin || sh.isLinux) root c a)
        ⟨c, ev⟩ := by
  unfold ciSteps
  cases ha : a.reset with
  | true =>
    have j : ∀ x y : Str, x.head? ≠ some '/' → y = '/' :: x → osPathJoin root x = root ++ y := by
      intro x y hx hy
      rw [osPathJoin_rooted hr hx, hy]
    have h : Does sh (pathRmF sh (root ++ "/build".toList) ;; pathRmF sh (root ++ "/llvm".toList) ;;
        pathRmF sh (root ++ "/googletest".toList) ;;
        pathRmF sh (root ++ "/oclint-json-compilation-database".toList) ;;
        pathRmF sh (root ++ "/oclint-xcodebuild".toList)) c c
        (["/build".toList, "/llvm".toList, "/googletest".toList,
          "/oclint-json-compilation-database".toList, "/oclint-xcodebuild".toList].map fun d =>
          .clear (root ++ d)) :=
      does_seq (does_rmF _ c) (does_seq (does_rmF _ c) (does_seq (does_rmF _ c)
        (does_seq (does_rmF _ c) (does_rmF _ c))))
    have e : ciReset sh root = ((pathRmF sh (root ++ "/build".toList) ;;
        pathRmF sh (root ++ "/llvm".toList) ;; pathRmF sh (root ++ "/googletest".toList) ;;
        pathRmF sh (root ++ "/oclint-json-compilation-database".toList) ;;
        pathRmF sh (root ++ "/oclint-xcodebuild".toList)) ;; .exit 0) := by
      unfold ciReset googletestDir
      rw [(buildRoot_eq hr).1, j "llvm".toList "/llvm".toList (by decide +kernel) (by decide +kernel),
        j "googletest".toList "/googletest".toList (by decide +kernel) (by decide +kernel),
        j "oclint-json-compilation-database".toList "/oclint-json-compilation-database".toList
          (by decide +kernel) (by decide +kernel),
        j "oclint-xcodebuild".toList "/oclint-xcodebuild".toList (by decide +kernel) (by decide +kernel),
        seq_assoc, seq_assoc, seq_assoc, seq_assoc]
    rw [ciScript_eq, ha, if_pos rfl, ← does_stop h ev, ← e]
    rfl
  | false =>
    rw [ciScript_eq, ha, if_neg (by simp)]
    refine does_exit (c1 := c) ?_ ev
    rw [ciCalls_eq, List.map_append, ← List.append_assoc]
    have hm := ((calls_main (sh := sh) a) (WritesOnly [] []) c).2
    have hs := ((calls_setup (sh := sh) a) (WritesOnly [] []) c).2
    have hc := ((calls_clones (sh := sh) sh.isDarwin) (WritesOnly [] []) root).2
    have h1 := does_when (sh := sh) a.setup fun _ => does_seq
      (does_returning (c1 := root) (does_seq (does_enter root c) hc)) hs
    refine does_seq (P := []) (does_skip c) (does_seq ?_ hm)
    cases hsu : a.setup with
    | true => rw [hsu] at h1; exact h1
    | false => exact does_skip c

end Oclint
