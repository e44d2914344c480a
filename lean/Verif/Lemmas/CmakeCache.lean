import Verif.Spec.CmakeCache
import Verif.Props.BuildScripts

/-!
# Lemmas about what CMake remembers
-/

namespace Oclint
open Spec

/-! ## Options -/

theorem cmakeDefinition_eq {k v : Str} (h : '=' ∉ k) : cmakeDefinition (k ++ '=' :: v) = [(k, v)] := by
  unfold cmakeDefinition
  have h1 : ∀ c ∈ k, decide (c ≠ '=') = true := fun c hc => by
    simp only [decide_eq_true_eq]
    rintro rfl
    exact h hc
  have e1 : (k ++ '=' :: v).takeWhile (fun c => decide (c ≠ '=')) = k := by
    rw [List.takeWhile_append_of_pos h1]
    simp
  have e2 : (k ++ '=' :: v).dropWhile (fun c => decide (c ≠ '=')) = '=' :: v := by
    rw [List.dropWhile_append_of_pos h1]
    simp
  rw [if_pos (by simp), e1, e2]
  rfl

theorem definitions_define {k v : Str} (h : '=' ∉ k) (ws : List Str) :
    cmakeDefinitions (define k v ++ ws) = (k, v) :: cmakeDefinitions ws := by
  show cmakeDefinitions (chars! "-D" :: (k ++ '=' :: v) :: ws) = _
  rw [cmakeDefinitions]
  refine (if_pos rfl).trans ?_
  rw [cmakeDefinition_eq h]
  rfl

theorem definitions_ninja (ws : List Str) :
    cmakeDefinitions (["-G".toList, "Ninja".toList] ++ ws) = cmakeDefinitions ws := by
  show cmakeDefinitions (chars! "-G" :: chars! "Ninja" :: ws) = _
  rw [cmakeDefinitions]
  refine (if_neg (by decide)).trans ?_
  exact if_pos rfl

theorem definitions_cmake {ws : List Str} (h : ws ≠ []) :
    cmakeDefinitions (["cmake".toList] ++ ws) = cmakeDefinitions ws := by
  cases ws with
  | nil => exact absurd rfl h
  | cons v ws =>
    show cmakeDefinitions (chars! "cmake" :: v :: ws) = _
    rw [cmakeDefinitions]
    exact (if_neg (by decide)).trans (if_neg (by decide))

theorem definitions_if (b : Bool) {k v : Str} (h : '=' ∉ k) (ws : List Str) :
    cmakeDefinitions ((if b then define k v else []) ++ ws) =
      (if b then [(k, v)] else []) ++ cmakeDefinitions ws := by
  cases b
  · rfl
  · exact definitions_define h ws

theorem definitions_unless (b : Bool) {k v : Str} (h : '=' ∉ k) (ws : List Str) :
    cmakeDefinitions ((if b then [] else define k v) ++ ws) =
      (if b then [] else [(k, v)]) ++ cmakeDefinitions ws := by
  cases b
  · exact definitions_define h ws
  · rfl

theorem definitions_generator (b : Bool) (ws : List Str) :
    cmakeDefinitions ((if b then [] else ["-G".toList, "Ninja".toList]) ++ ws) = cmakeDefinitions ws := by
  cases b
  · exact definitions_ninja ws
  · rfl

/-- The options that say where a part is. -/
def placesAt (root suffix : Str) : OclintModule → List (Str × Str)
  | .core => [("OCLINT_SOURCE_DIR".toList, root ++ "/oclint-core".toList),
      ("OCLINT_BUILD_DIR".toList, root ++ "/build/oclint-core".toList ++ suffix)]
  | .metrics => [("OCLINT_METRICS_SOURCE_DIR".toList, root ++ "/oclint-metrics".toList),
      ("OCLINT_METRICS_BUILD_DIR".toList, root ++ "/build/oclint-metrics".toList ++ suffix)]
  | _ => []

theorem placesAt_nil (root : Str) (m : OclintModule) : placesAt root [] m = partPlaces root m := by
  cases m <;> simp only [placesAt, partPlaces, List.append_nil]

theorem definitions_tells (root suffix : Str) (ms : List OclintModule) (ws : List Str) :
    cmakeDefinitions (ms.flatMap (tells root suffix) ++ ws) =
      ms.flatMap (placesAt root suffix) ++ cmakeDefinitions ws := by
  induction ms with
  | nil => rfl
  | cons m ms ih =>
    rw [List.flatMap_cons, List.flatMap_cons, List.append_assoc, List.append_assoc, ← ih]
    generalize ms.flatMap (tells root suffix) ++ ws = rest
    cases m with
    | core =>
      rw [tells, List.append_assoc, definitions_define (by decide +kernel),
        definitions_define (by decide +kernel)]
      rfl
    | metrics =>
      rw [tells, List.append_assoc, definitions_define (by decide +kernel),
        definitions_define (by decide +kernel)]
      rfl
    | rules => rfl
    | reporters => rfl
    | driver => rfl

theorem definitions_build (root : Str) (a : BuildArgs) (m : OclintModule) :
    cmakeDefinitions (buildWords root a m) = askedFor root a m := by
  unfold buildWords askedFor
  simp only [List.append_assoc]
  rw [definitions_cmake (by simp [define]), definitions_generator, definitions_if _ (by decide +kernel),
    definitions_if _ (by decide +kernel), definitions_define (by decide +kernel), definitions_tells]
  have e : placesAt root [] = partPlaces root := funext (placesAt_nil root)
  rw [e]
  have last : cmakeDefinitions [sourceDir root m] = [] := rfl
  rw [last, List.append_nil]

theorem definitions_test (root : Str) (a : TestArgs) (m : OclintModule) :
    cmakeDefinitions (testWords root a m) =
      (if a.asDep then [] else [("TEST_BUILD".toList, "1".toList)]) ++
      ("LLVM_ROOT".toList, a.llvmRoot) :: ("GOOGLETEST_SRC".toList, root ++ "/googletest".toList) ::
      ("GOOGLETEST_BUILD".toList, root ++ "/build/googletest/lib".toList) ::
      (needs m).flatMap (placesAt root "-test".toList) := by
  unfold testWords
  simp only [List.append_assoc]
  rw [definitions_cmake (by simp [define]), definitions_unless _ (by decide +kernel), definitions_generator,
    definitions_define (by decide +kernel), definitions_define (by decide +kernel),
    definitions_define (by decide +kernel), definitions_tells]
  have last : cmakeDefinitions [sourceDir root m] = [] := rfl
  rw [last, List.append_nil]

theorem definitions_dog (root : Str) (a : DogArgs) (m : OclintModule) :
    cmakeDefinitions (dogWords root a m) =
      ("CMAKE_EXPORT_COMPILE_COMMANDS".toList, "ON".toList) :: ("LLVM_ROOT".toList, a.llvmRoot) ::
      (needs m).flatMap (placesAt root []) := by
  unfold dogWords
  simp only [List.append_assoc]
  rw [definitions_cmake (by simp [define]), definitions_define (by decide +kernel),
    definitions_define (by decide +kernel), definitions_tells]
  have last : cmakeDefinitions [sourceDir root m] = [] := rfl
  rw [last, List.append_nil]

/-! ## Remembering -/

theorem putAll_lookup (l : List (Str × Str)) (hn : (l.map (·.1)).Nodup) (c : CmakeCache) (k : Str) :
    l.foldl CmakeCache.put c k = (l.lookup k).or (c k) := by
  induction l generalizing c with
  | nil => rfl
  | cons x l ih =>
    rw [List.map_cons, List.nodup_cons] at hn
    rw [List.foldl_cons, ih hn.2]
    obtain ⟨x, v⟩ := x
    rw [List.lookup_cons]
    by_cases h : k = x
    · subst h
      have : l.lookup k = none := by
        rw [List.lookup_eq_none_iff]
        intro p hp
        simp only [ne_eq, bne_iff_ne]
        rintro rfl
        exact hn.1 (List.mem_map.2 ⟨p, hp, rfl⟩)
      rw [this]
      simp [CmakeCache.put]
    · have hb : (k == x) = false := by simpa using h
      rw [hb]
      simp [CmakeCache.put, h]

theorem putAll_other (l : List (Str × Str)) (c : CmakeCache) (k : Str) (h : k ∉ l.map (·.1)) :
    l.foldl CmakeCache.put c k = c k := by
  induction l generalizing c with
  | nil => rfl
  | cons x l ih =>
    rw [List.map_cons, List.mem_cons, not_or] at h
    rw [List.foldl_cons, ih _ h.2]
    exact if_neg h.1

theorem asked_nodup (root : Str) (a : BuildArgs) (m : OclintModule) : ((askedFor root a m).map (·.1)).Nodup := by
  unfold askedFor
  rw [List.map_append, List.map_append, List.map_cons]
  have e : ((needs m).flatMap (partPlaces root)).map (·.1) = ((needs m).flatMap (partPlaces [])).map (·.1) := by
    cases m <;> rfl
  rw [e]
  dsimp only
  generalize a.release = r, a.docgen = g
  revert r g
  cases m <;> decide +kernel

theorem run_cmake {ws : List Str} (h : (unwords ("cmake".toList :: ws)).splitOn ' ' = "cmake".toList :: ws)
    (hn : ws ≠ []) (c : CmakeCache) :
    c.run (unwords ("cmake".toList :: ws)) = (cmakeDefinitions ("cmake".toList :: ws)).foldl CmakeCache.put c := by
  have e : (chars! "cmake ").isPrefixOf (unwords ("cmake".toList :: ws)) = true := by
    cases ws with
    | nil => exact absurd rfl hn
    | cons w ws =>
      rw [List.isPrefixOf_iff_prefix]
      exact ⟨unwords (w :: ws), by simp [unwords]⟩
  unfold CmakeCache.run
  rw [if_pos e, h]

theorem noSpace_test {root : Str} {a : TestArgs} (h1 : ' ' ∉ root) (h2 : ' ' ∉ a.llvmRoot) (m : OclintModule) :
    ∀ w ∈ testWords root a m, ' ' ∉ w := by
  have lit : ∀ x ∈ ["cmake".toList, "-G".toList, "Ninja".toList, "TEST_BUILD".toList,
      "GOOGLETEST_SRC".toList, "GOOGLETEST_BUILD".toList, "1".toList, "LLVM_ROOT".toList,
      "/googletest".toList, "/build/googletest/lib".toList, "-test".toList], noSpace x := by
    unfold noSpace
    decide +kernel
  unfold testWords
  generalize "cmake".toList = s1, "-G".toList = s2, "Ninja".toList = s3, "TEST_BUILD".toList = s4,
    "GOOGLETEST_SRC".toList = s5, "GOOGLETEST_BUILD".toList = s6, "1".toList = s7, "LLVM_ROOT".toList = s8,
    "/googletest".toList = s9, "/build/googletest/lib".toList = s10, "-test".toList = s11 at lit ⊢
  simp only [List.forall_mem_cons] at lit
  obtain ⟨l1, l2, l3, l4, l5, l6, l7, l8, l9, l10, l11, -⟩ := lit
  intro w hw
  simp only [List.mem_append] at hw
  rcases hw with ((((((hw | hw) | hw) | hw) | hw) | hw) | hw) | hw
  · rw [List.mem_singleton.1 hw]
    exact l1
  · split at hw
    · exact absurd hw List.not_mem_nil
    · exact noSpace_define l4 l7 hw
  · split at hw
    · exact absurd hw List.not_mem_nil
    · rcases List.mem_cons.1 hw with rfl | hw
      · exact l2
      · rw [List.mem_singleton.1 hw]
        exact l3
  · exact noSpace_define l8 h2 hw
  · exact noSpace_define l5 (noSpace_append h1 l9) hw
  · exact noSpace_define l6 (noSpace_append h1 l10) hw
  · obtain ⟨d, -, hd⟩ := List.mem_flatMap.1 hw
    exact noSpace_tells h1 l11 d hd
  · rw [List.mem_singleton.1 hw]
    exact noSpace_source h1 m

theorem noSpace_dog {root : Str} {a : DogArgs} (h1 : ' ' ∉ root) (h2 : ' ' ∉ a.llvmRoot) (m : OclintModule) :
    ∀ w ∈ dogWords root a m, ' ' ∉ w := by
  have lit : ∀ x ∈ ["cmake".toList, "CMAKE_EXPORT_COMPILE_COMMANDS".toList, "ON".toList,
      "LLVM_ROOT".toList], noSpace x := by
    unfold noSpace
    decide +kernel
  unfold dogWords
  generalize "cmake".toList = s1, "CMAKE_EXPORT_COMPILE_COMMANDS".toList = s2, "ON".toList = s3,
    "LLVM_ROOT".toList = s4 at lit ⊢
  simp only [List.forall_mem_cons] at lit
  obtain ⟨l1, l2, l3, l4, -⟩ := lit
  intro w hw
  simp only [List.mem_append] at hw
  rcases hw with (((hw | hw) | hw) | hw) | hw
  · rw [List.mem_singleton.1 hw]
    exact l1
  · exact noSpace_define l2 l3 hw
  · exact noSpace_define l4 h2 hw
  · obtain ⟨d, -, hd⟩ := List.mem_flatMap.1 hw
    exact noSpace_tells h1 (by unfold noSpace; simp) d hd
  · rw [List.mem_singleton.1 hw]
    exact noSpace_source h1 m

theorem run_build {root : Str} (hr : ProjectRoot root) {a : BuildArgs} (h1 : ' ' ∉ root)
    (h2 : ' ' ∉ a.llvmRoot) (m : OclintModule) (c : CmakeCache) :
    c.run (unwords (buildWords root a m)) = (askedFor root a m).foldl CmakeCache.put c := by
  have h := C108_words_partial root hr a m h1 h2
  rw [buildCommand_eq hr] at h
  rw [← definitions_build]
  obtain ⟨ws, hws, hn⟩ : ∃ ws, buildWords root a m = "cmake".toList :: ws ∧ ws ≠ [] := by
    unfold buildWords
    simp only [List.append_assoc]
    exact ⟨_, rfl, by simp [define]⟩
  rw [hws] at h ⊢
  exact run_cmake h hn c

theorem run_test {root : Str} {a : TestArgs} (h1 : ' ' ∉ root) (h2 : ' ' ∉ a.llvmRoot) (m : OclintModule)
    (c : CmakeCache) :
    c.run (unwords (testWords root a m)) = (cmakeDefinitions (testWords root a m)).foldl CmakeCache.put c := by
  have hsp := noSpace_test h1 h2 m
  obtain ⟨ws, hws, hn⟩ : ∃ ws, testWords root a m = "cmake".toList :: ws ∧ ws ≠ [] := by
    unfold testWords
    simp only [List.append_assoc]
    exact ⟨_, rfl, by simp [define]⟩
  rw [hws] at hsp ⊢
  exact run_cmake (splitOn_unwords _ hsp (List.cons_ne_nil _ _)) hn c

theorem run_dog {root : Str} {a : DogArgs} (h1 : ' ' ∉ root) (h2 : ' ' ∉ a.llvmRoot) (m : OclintModule)
    (c : CmakeCache) :
    c.run (unwords (dogWords root a m)) = (cmakeDefinitions (dogWords root a m)).foldl CmakeCache.put c := by
  have hsp := noSpace_dog h1 h2 m
  obtain ⟨ws, hws, hn⟩ : ∃ ws, dogWords root a m = "cmake".toList :: ws ∧ ws ≠ [] := by
    unfold dogWords
    simp only [List.append_assoc]
    exact ⟨_, rfl, by simp [define]⟩
  rw [hws] at hsp ⊢
  exact run_cmake (splitOn_unwords _ hsp (List.cons_ne_nil _ _)) hn c

theorem run_other {command : Str} (h : command.head? ≠ some 'c') (c : CmakeCache) : c.run command = c := by
  unfold CmakeCache.run
  refine if_neg ?_
  rw [List.isPrefixOf_iff_prefix]
  rintro ⟨t, rfl⟩
  exact h rfl

theorem unwords_head {w : Str} (hw : w ≠ []) (ws : List Str) : (unwords (w :: ws)).head? = w.head? := by
  cases w with
  | nil => exact absurd rfl hw
  | cons x w => cases ws <;> rfl

theorem builder_head (cpus : Nat) (noNinja : Bool) (j : Int) :
    (builder cpus noNinja j).head? ≠ some 'c' := by
  unfold builder
  split
  · rw [unwords_head (by simp)]
    simp
  · split
    · rw [unwords_head (by simp)]
      simp
    · rw [unwords_head (by simp)]
      simp

/-! ## Steps that were carried out -/

/-- All steps were carried out and none ended the script. -/
def Carried (sh : Shell) : List ScriptStep → ScriptState → ScriptState → Prop
  | [], s, t => s = t
  | x :: xs, s, t => ∃ u, doStep sh s x = (none, u) ∧ Carried sh xs u t

theorem carried_append {sh : Shell} (xs ys : List ScriptStep) (s t : ScriptState) :
    Carried sh (xs ++ ys) s t ↔ ∃ u, Carried sh xs s u ∧ Carried sh ys u t := by
  induction xs generalizing s with
  | nil => simp [Carried]
  | cons x xs ih =>
    simp only [List.cons_append, Carried, ih]
    constructor
    · rintro ⟨u, h1, v, h2, h3⟩
      exact ⟨v, ⟨u, h1, h2⟩, h3⟩
    · rintro ⟨v, ⟨u, h1, h2⟩, h3⟩
      exact ⟨u, h1, v, h2, h3⟩

theorem doAction_code {sh : Shell} {a : FileAction} {s : ScriptState} {e : Int}
    (h : (doAction sh a s).1 = some e) : e = 1 := by
  unfold doAction at h
  split at h
  · simp at h
  · simpa using h.symm

theorem doStep_code {sh : Shell} (ho : Ordinary sh) {s : ScriptState} {x : ScriptStep} {e : Int}
    (h : (doStep sh s x).1 = some e) : e % 256 ≠ 0 := by
  cases x with
  | run c =>
    simp only [doStep] at h
    split at h
    · simp at h
    · have := ho s.events s.cwd c
      simp only [Option.some.injEq] at h
      subst h
      omega
  | runAndShow c f =>
    simp only [doStep] at h
    have := ho s.events s.cwd c
    cases hd : (doAction sh (.show f) ⟨s.cwd, s.events ++ [.ran s.cwd c (sh.run s.events s.cwd c)]⟩).1 with
    | none =>
      rw [hd] at h
      simp only [Option.none_or] at h
      split at h
      · simp at h
      · simp only [Option.some.injEq] at h
        subst h
        omega
    | some e' =>
      rw [hd] at h
      simp only [Option.some_or, Option.some.injEq] at h
      subst h
      rw [doAction_code hd]
      decide
  | act a =>
    rw [doAction_code h]
    decide
  | clear d =>
    simp only [doStep] at h
    split at h
    · rw [doAction_code h]
      decide
    · simp at h
  | ensure d =>
    simp only [doStep] at h
    split at h
    · simp at h
    · rw [doAction_code h]
      decide
  | compiler r => simp [doStep] at h

theorem carryOut_carried {sh : Shell} (ho : Ordinary sh) (xs : List ScriptStep) (s : ScriptState)
    (h : (carryOut sh xs s).1 = 0) : Carried sh xs s (carryOut sh xs s).2 := by
  induction xs generalizing s with
  | nil => rfl
  | cons x xs ih =>
    rw [carryOut] at h ⊢
    rcases hd : doStep sh s x with ⟨r, u⟩
    rw [hd] at h
    cases r with
    | none => exact ⟨u, hd, ih u h⟩
    | some e => exact absurd h (doStep_code ho (by rw [hd]))

/-! ## What is remembered after a step -/

theorem after_append (caches : Str → CmakeCache) (a b : List ScriptEvent) :
    cachesAfter caches (a ++ b) = cachesAfter (cachesAfter caches a) b := List.foldl_append

theorem step_run {sh : Shell} {s u : ScriptState} {c : Str} (h : doStep sh s (.run c) = (none, u))
    (caches : Str → CmakeCache) : u.cwd = s.cwd ∧ ∀ d, cachesAfter caches u.events d =
      if d = s.cwd then (cachesAfter caches s.events d).run c else cachesAfter caches s.events d := by
  simp only [doStep, Prod.mk.injEq] at h
  obtain ⟨-, rfl⟩ := h
  refine ⟨rfl, fun d => ?_⟩
  rw [after_append]
  rfl

theorem step_enter {sh : Shell} {s u : ScriptState} {d : Str}
    (h : doStep sh s (.act (.enter d)) = (none, u)) (caches : Str → CmakeCache) :
    u.cwd = d ∧ cachesAfter caches u.events = cachesAfter caches s.events := by
  simp only [doStep, doAction] at h
  split at h
  · simp only [Prod.mk.injEq, true_and] at h
    subst h
    refine ⟨rfl, ?_⟩
    rw [after_append]
    rfl
  · simp at h

theorem step_ensure {sh : Shell} {s u : ScriptState} {d : Str}
    (h : doStep sh s (.ensure d) = (none, u)) (caches : Str → CmakeCache) :
    u.cwd = s.cwd ∧ cachesAfter caches u.events = cachesAfter caches s.events := by
  simp only [doStep, doAction] at h
  split at h
  · simp only [Prod.mk.injEq, true_and] at h
    subst h
    exact ⟨rfl, rfl⟩
  · split at h
    · simp only [Prod.mk.injEq, true_and] at h
      subst h
      refine ⟨rfl, ?_⟩
      rw [after_append]
      rfl
    · simp at h

theorem step_compiler {sh : Shell} {s u : ScriptState} {d : Str}
    (h : doStep sh s (.compiler d) = (none, u)) (caches : Str → CmakeCache) :
    cachesAfter caches u.events = cachesAfter caches s.events := by
  simp only [doStep, Prod.mk.injEq, true_and] at h
  subst h
  rw [after_append]
  split <;> rfl

theorem step_clear {sh : Shell} {s u : ScriptState} {d : Str} {caches : Str → CmakeCache}
    (hd : InDirectories sh caches) (h : doStep sh s (.clear d) = (none, u)) :
    (∀ k, cachesAfter caches u.events d k = none) ∧
      ∀ x, x ≠ d → ¬ d ++ ['/'] <+: x → cachesAfter caches u.events x = cachesAfter caches s.events x := by
  simp only [doStep, doAction] at h
  split at h
  · split at h
    · simp only [Prod.mk.injEq, true_and] at h
      subst h
      simp only [after_append]
      constructor
      · intro k
        show (if d = d ∨ _ then fun _ => none else _ : CmakeCache) k = none
        rw [if_pos (Or.inl rfl)]
      · intro x h1 h2
        refine if_neg ?_
        rw [List.isPrefixOf_iff_prefix]
        exact not_or.2 ⟨h1, h2⟩
    · simp at h
  · rename_i hn
    simp only [Prod.mk.injEq, true_and] at h
    subst h
    refine ⟨fun k => ?_, fun _ _ _ => rfl⟩
    by_contra hk
    exact hn (hd _ _ _ hk)

end Oclint
