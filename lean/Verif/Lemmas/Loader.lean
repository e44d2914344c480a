import Verif.Spec.Driver
import Mathlib.Data.List.Basic

/-!
# Lemmas about plugin loading
-/

namespace Oclint
open Spec

theorem isDotEntry_iff (n : Str) : isDotEntry n = true ↔ n.head? = some '.' := by
  cases n <;> simp [isDotEntry]

theorem registered_addRule (reg : Registry) (r : RuleId) :
    registered (reg.addRule r) = registered reg ++ [r] := by
  cases reg <;> simp [registered, Registry.addRule]

theorem registered_foldl (rs : List RuleId) (reg : Registry) :
    registered (rs.foldl Registry.addRule reg) = registered reg ++ rs := by
  induction rs generalizing reg with
  | nil => simp
  | cons r t ih => rw [List.foldl_cons, ih, registered_addRule]; simp

/-- Opening a sequence of library paths. -/
def openAll (lib : Str → Option (List RuleId)) : LoaderState → List Str → Outcome LoaderState
  | st, [] => .ok st
  | st, p :: ps =>
    match openRuleLibrary lib st p with
    | none => .throws ("cannot open dynamic library: ".toList ++ p)
    | some st' => openAll lib st' ps

theorem openAll_append (lib : Str → Option (List RuleId)) (ps qs : List Str) (st : LoaderState) :
    openAll lib st (ps ++ qs) = (do let st' ← openAll lib st ps; openAll lib st' qs) := by
  induction ps generalizing st with
  | nil => rfl
  | cons p ps ih =>
    simp only [List.cons_append, openAll]
    split
    · rfl
    · exact ih _

theorem loadRuleEntries_eq (lib : Str → Option (List RuleId)) (dir : Str) (names : List Str)
    (st : LoaderState) :
    loadRuleEntries lib dir st names =
      openAll lib st
        ((names.filter fun n => decide (n.head? ≠ some '.')).map fun n => dir ++ '/' :: n) := by
  induction names generalizing st with
  | nil => rfl
  | cons n t ih =>
    rw [loadRuleEntries]
    by_cases h : isDotEntry n = true
    · have h' := (isDotEntry_iff n).1 h
      rw [if_pos h, ih, List.filter_cons_of_neg (by simp [h'])]
    · have h' : n.head? ≠ some '.' := fun e => h ((isDotEntry_iff n).2 e)
      rw [if_neg h, List.filter_cons_of_pos (by simp [h']), List.map_cons, openAll]
      have e : dir ++ "/".toList ++ n = dir ++ '/' :: n := by simp
      simp only [e, ih]
      rfl

theorem dynamicLoadRules_eq (ls : Listing) (lib : Str → Option (List RuleId)) (st : LoaderState)
    (dir : Str) : dynamicLoadRules ls lib st dir = openAll lib st (pluginPaths ls dir) := by
  unfold dynamicLoadRules pluginPaths
  cases h : ls dir with
  | none => rfl
  | some names => exact loadRuleEntries_eq lib dir names st

theorem consumeArgRulesPath_eq (ls : Listing) (lib : Str → Option (List RuleId)) (dirs : List Str)
    (st : LoaderState) :
    consumeArgRulesPath ls lib st dirs = openAll lib st (dirs.flatMap (pluginPaths ls)) := by
  induction dirs generalizing st with
  | nil => rfl
  | cons d ds ih =>
    rw [consumeArgRulesPath, List.flatMap_cons, openAll_append, dynamicLoadRules_eq]
    congr 1
    funext st'
    exact ih st'

theorem openAll_ok {lib : Str → Option (List RuleId)} (ps : List Str) (st : LoaderState)
    (h : ∀ p ∈ ps, (lib p).isSome) :
    ∃ st', openAll lib st ps = .ok st' ∧
      registered st'.registry = registered st.registry ++
        ((ps.filter fun p => decide (p ∉ st.opened)).eraseDups).flatMap
          fun p => (lib p).getD [] := by
  induction ps generalizing st with
  | nil => exact ⟨st, rfl, by simp⟩
  | cons p ps ih =>
    obtain ⟨rules, hr⟩ := Option.isSome_iff_exists.1 (h p (by simp))
    have ht : ∀ q ∈ ps, (lib q).isSome := fun q hq => h q (by simp [hq])
    rw [openAll]
    by_cases hp : p ∈ st.opened
    · have e : openRuleLibrary lib st p = some st := by simp [openRuleLibrary, hr, hp]
      rw [e]
      obtain ⟨st', h1, h2⟩ := ih st ht
      exact ⟨st', h1, by rw [h2, List.filter_cons_of_neg (by simp [hp])]⟩
    · have e : openRuleLibrary lib st p =
          some { opened := st.opened ++ [p], registry := rules.foldl Registry.addRule st.registry } := by
        simp [openRuleLibrary, hr, hp]
      rw [e]
      obtain ⟨st', h1, h2⟩ := ih _ ht
      refine ⟨st', h1, ?_⟩
      rw [h2, List.filter_cons_of_pos (by simp [hp]), List.eraseDups_cons, List.flatMap_cons]
      simp only [registered_foldl, List.append_assoc, hr, Option.getD_some, List.filter_filter]
      congr 4
      refine List.filter_congr ?_
      intro q _
      by_cases hq : q = p <;> simp [hq]

theorem openAll_throws {lib : Str → Option (List RuleId)} (ps : List Str) (st : LoaderState)
    (pre : List Str) (p : Str) (post : List Str) (hps : ps = pre ++ p :: post)
    (hpre : ∀ q ∈ pre, (lib q).isSome) (hp : lib p = none) :
    openAll lib st ps = .throws ("cannot open dynamic library: ".toList ++ p) := by
  subst hps
  rw [openAll_append]
  obtain ⟨st', h1, _⟩ := openAll_ok pre st hpre
  rw [h1]
  simp [openAll, openRuleLibrary, hp]

/-- Either all succeed or there is a first failure. -/
theorem all_or_first {α β : Type} (f : α → Option β) (ps : List α) :
    (∀ p ∈ ps, (f p).isSome) ∨
      ∃ pre p post, ps = pre ++ p :: post ∧ (∀ q ∈ pre, (f q).isSome) ∧ f p = none := by
  induction ps with
  | nil => left; simp
  | cons p ps ih =>
    cases hp : f p with
    | none => right; exact ⟨[], p, ps, rfl, by simp, hp⟩
    | some b =>
      rcases ih with h | ⟨pre, q, post, h1, h2, h3⟩
      · left
        intro q hq
        rcases List.mem_cons.1 hq with rfl | hq
        · simp [hp]
        · exact h q hq
      · right
        refine ⟨p :: pre, q, post, by simp [h1], ?_, h3⟩
        intro r hr
        rcases List.mem_cons.1 hr with rfl | hr
        · simp [hp]
        · exact h2 r hr

/-- The reporter search over full paths. -/
def searchReporter (lib : Str → Option ReporterLibrary) (reportType : Str) :
    List Str → Outcome (Option Str)
  | [] => .ok none
  | path :: rest =>
    match lib path with
    | none => .throws ("cannot open dynamic library: ".toList ++ path)
    | some none => .ub
    | some (some name) =>
      if name = reportType then .ok (some path) else searchReporter lib reportType rest

theorem loadReporterEntries_eq (lib : Str → Option ReporterLibrary) (reportType dir : Str)
    (names : List Str) :
    loadReporterEntries lib reportType dir names =
      searchReporter lib reportType
        ((names.filter fun n => decide (n.head? ≠ some '.')).map fun n => dir ++ '/' :: n) := by
  induction names with
  | nil => rfl
  | cons n t ih =>
    rw [loadReporterEntries]
    by_cases h : isDotEntry n = true
    · have h' := (isDotEntry_iff n).1 h
      rw [if_pos h, ih, List.filter_cons_of_neg (by simp [h'])]
    · have h' : n.head? ≠ some '.' := fun e => h ((isDotEntry_iff n).2 e)
      rw [if_neg h, List.filter_cons_of_pos (by simp [h']), List.map_cons, searchReporter]
      have e : dir ++ "/".toList ++ n = dir ++ '/' :: n := by simp
      simp only [e, ih]
      rfl

theorem loadReporter_eq (ls : Listing) (lib : Str → Option ReporterLibrary) (reportType dir : Str) :
    loadReporter ls lib reportType dir =
      (do
        match ← searchReporter lib reportType (pluginPaths ls dir) with
        | none => .throws ("cannot find dynamic library for report type: ".toList ++ reportType)
        | some path => .ok path) := by
  unfold loadReporter pluginPaths
  cases h : ls dir with
  | none => rfl
  | some names => simp only [loadReporterEntries_eq]; rfl

theorem searchReporter_prefix {lib : Str → Option ReporterLibrary} {reportType : Str}
    (pre rest : List Str)
    (hpre : ∀ q ∈ pre, ∃ n, lib q = some (some n) ∧ n ≠ reportType) :
    searchReporter lib reportType (pre ++ rest) = searchReporter lib reportType rest := by
  induction pre with
  | nil => rfl
  | cons p ps ih =>
    obtain ⟨n, hn, hne⟩ := hpre p (by simp)
    rw [List.cons_append, searchReporter, hn]
    simp only [if_neg hne]
    exact ih fun q hq => hpre q (by simp [hq])

theorem other_or_decisive (lib : Str → Option ReporterLibrary) (reportType : Str) (ps : List Str) :
    (∀ q ∈ ps, ∃ n, lib q = some (some n) ∧ n ≠ reportType) ∨
      ∃ pre p post, ps = pre ++ p :: post ∧
        (∀ q ∈ pre, ∃ n, lib q = some (some n) ∧ n ≠ reportType) ∧
        ¬ ∃ n, lib p = some (some n) ∧ n ≠ reportType := by
  induction ps with
  | nil => left; simp
  | cons p ps ih =>
    by_cases hp : ∃ n, lib p = some (some n) ∧ n ≠ reportType
    · rcases ih with h | ⟨pre, q, post, h1, h2, h3⟩
      · left
        intro q hq
        rcases List.mem_cons.1 hq with rfl | hq
        · exact hp
        · exact h q hq
      · right
        refine ⟨p :: pre, q, post, by simp [h1], ?_, h3⟩
        intro r hr
        rcases List.mem_cons.1 hr with rfl | hr
        · exact hp
        · exact h2 r hr
    · right; exact ⟨[], p, ps, rfl, by simp, hp⟩

end Oclint
