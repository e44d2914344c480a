import Verif.Spec.Main
import Verif.Lemmas.Driver
import Verif.Lemmas.Loader
import Verif.Lemmas.Registry
import Verif.Lemmas.Results

/-!
# Lemmas about the main program
-/

namespace Oclint
open Spec

variable {U σ κ : Type}

theorem numberOfRules_eq (reg : Registry) : reg.numberOfRules = (registered reg).length := by
  cases reg <;> rfl

theorem registry_of_pos (reg : Registry) (h : ¬ reg.numberOfRules ≤ 0) :
    reg = registryAfter (registered reg) := by
  rw [registryAfter_eq]
  cases reg with
  | none => simp [Registry.numberOfRules] at h
  | some l =>
    cases l with
    | nil => simp [Registry.numberOfRules] at h
    | cons r rs => rfl

theorem mem_eraseDups' {α : Type} [DecidableEq α] (a : α) (l : List α) :
    a ∈ l.eraseDups ↔ a ∈ l := by
  simp

/-- Rule loading in terms of the specification. -/
theorem loading_spec (m : Machine U σ κ) (st : OptionState) :
    (RulesLoad m st ∧ ∃ ld,
      consumeArgRulesPath m.listing m.ruleLibrary ⟨[], none⟩ (rulesPath m.env st) = .ok ld ∧
        ¬ ld.registry.numberOfRules ≤ 0 ∧
        ld.registry = registryAfter
          (((rulesPath m.env st).flatMap (pluginPaths m.listing)).eraseDups.flatMap
            fun p => (m.ruleLibrary p).getD [])) ∨
    (¬ RulesLoad m st ∧
      ((∃ w, consumeArgRulesPath m.listing m.ruleLibrary ⟨[], none⟩ (rulesPath m.env st) =
          .throws w) ∨
        ∃ ld, consumeArgRulesPath m.listing m.ruleLibrary ⟨[], none⟩ (rulesPath m.env st) = .ok ld ∧
          ld.registry.numberOfRules ≤ 0)) := by
  rw [consumeArgRulesPath_eq]
  generalize hps : (rulesPath m.env st).flatMap (pluginPaths m.listing) = ps
  rcases all_or_first m.ruleLibrary ps with hall | ⟨pre, p, post, h1, h2, h3⟩
  · obtain ⟨ld, h1, h2⟩ := openAll_ok ps ⟨[], none⟩ hall
    have h2' : registered ld.registry = ps.eraseDups.flatMap fun p => (m.ruleLibrary p).getD [] := by
      simpa [registered] using h2
    by_cases hn : ld.registry.numberOfRules ≤ 0
    · right
      refine ⟨?_, Or.inr ⟨ld, h1, hn⟩⟩
      rintro ⟨_, p, hp, r, rs, hr⟩
      rw [hps] at hp
      rw [numberOfRules_eq, h2'] at hn
      have hnil : (ps.eraseDups.flatMap fun p => (m.ruleLibrary p).getD []) = [] := by
        exact List.length_eq_zero_iff.1 (Nat.le_zero.1 hn)
      have := List.flatMap_eq_nil_iff.1 hnil p (by simpa using hp)
      simp [hr] at this
    · left
      refine ⟨⟨by rw [hps]; exact hall, ?_⟩, ld, h1, hn, ?_⟩
      · rw [numberOfRules_eq, h2'] at hn
        have hne : (ps.eraseDups.flatMap fun p => (m.ruleLibrary p).getD []) ≠ [] := by
          intro e; rw [e] at hn; simp at hn
        obtain ⟨r, hr⟩ := List.exists_mem_of_ne_nil _ hne
        obtain ⟨p, hp, hrp⟩ := List.mem_flatMap.1 hr
        rw [hps]
        refine ⟨p, by simpa using hp, ?_⟩
        cases hl : m.ruleLibrary p with
        | none => simp [hl] at hrp
        | some l =>
          cases l with
          | nil => simp [hl] at hrp
          | cons r' rs => exact ⟨r', rs, rfl⟩
      · rw [← h2']; exact registry_of_pos _ hn
  · right
    refine ⟨?_, Or.inl ⟨_, openAll_throws ps _ pre p post h1 h2 h3⟩⟩
    rintro ⟨hall, _⟩
    rw [hps] at hall
    have := hall p (by rw [h1]; simp)
    simp [h3] at this

theorem getResults_eq [DecidableEq κ] (h : Violation → κ) (st : OptionState) (c : ResultCollector) :
    getResults h st.argDuplications.value c = answers st c := by
  funext ch
  unfold getResults answers
  cases st.argDuplications.value with
  | true => rfl
  | false =>
    simp only [Bool.false_eq_true, if_false]
    rw [uniqueAll_answer]
    cases ch <;> simp [UniqueMemo.get, UniqueMemo.empty]

theorem outputPath_cases (st : OptionState) :
    (∃ f, outputPath st = .ok f) ∨ ∃ w, outputPath st = .throws w := by
  unfold outputPath
  split
  · exact Or.inr ⟨_, rfl⟩
  · split
    · exact Or.inl ⟨_, rfl⟩
    · exact Or.inl ⟨_, rfl⟩

theorem reportStage_cases (m : Machine U σ κ) (st : OptionState) (r : Str) (a : Answers) :
    (reportStage m st r a = .ok () ↔ Reported m st r a = .ok ()) ∧
      ((∃ w, reportStage m st r a = .throws w) ↔ ∃ w, Reported m st r a = .throws w) ∧
      (reportStage m st r a = .ub ↔ Reported m st r a = .ub) := by
  unfold reportStage Reported outStream hasOutputPath
  generalize "-".toList = dash
  generalize "cannot open report output file ".toList = msg
  by_cases hd : st.argOutput.value = dash
  · simp [hd]
  · have : (!decide (st.argOutput.value ≠ dash)) = false := by simp [hd]
    rw [this, if_neg hd]
    simp only [Bool.false_eq_true, if_false]
    rcases outputPath_cases st with ⟨f, hf⟩ | ⟨w, hw⟩
    · rw [hf]
      by_cases ho : m.canOpen f = true
      · simp only [Outcome.bind_ok, ho, if_true, Outcome.pure_eq, iff_self, and_self]
      · simp only [Outcome.bind_ok, Outcome.bind_throws, if_neg ho]; simp
    · rw [hw]; simp

theorem answers_errors (st : OptionState) (c : ResultCollector) :
    hasAny (answers st c .errors) = true ↔ rawAll c .errors ≠ [] := by
  unfold hasAny numberOf answers
  rw [decide_eq_true_iff]
  cases st.argDuplications.value with
  | true => simp [List.length_pos_iff]
  | false =>
    simp only [Bool.false_eq_true, if_false, gt_iff_lt, List.length_pos_iff, ne_eq, firsts_eq_nil]

theorem answers_ruled (st : OptionState) (c : ResultCollector) (h : AllRuled c) :
    ∀ v ∈ answers st c .violations, v.rule ≠ none := by
  have hr : ∀ v ∈ rawAll c .violations, v.rule ≠ none := by
    intro v hv
    simp only [rawAll, collectAll_eq] at hv
    obtain ⟨s, hs, hvs⟩ := List.mem_flatten.1 hv
    exact h s hs v hvs
  unfold answers
  intro v hv
  cases hd : st.argDuplications.value with
  | true => rw [hd] at hv; exact hr v hv
  | false =>
    rw [hd] at hv
    simp only [Bool.false_eq_true, if_false, mem_firsts] at hv
    exact hr v hv

theorem exceedThreshold_eq (m : Machine U σ κ) (st : OptionState) (a : Answers)
    (h : ∀ v ∈ a .violations, v.rule ≠ none) :
    ∃ b, exceedThreshold m.priorityOf st a = .ok b ∧
      (b = true ↔ ¬ WithinLimits m st (a .violations)) := by
  have hc : ∀ p, numberOfViolationsWithPriority m.priorityOf (a .violations) p =
      .ok (countWithPriority m.priorityOf p (a .violations)) := by
    intro p
    simp [numberOfViolationsWithPriority, countPriorityLoop_eq m.priorityOf p _ h]
  unfold exceedThreshold WithinLimits
  simp only [hc, Outcome.bind_ok, Outcome.pure_eq]
  split
  · exact ⟨true, rfl, by simp; omega⟩
  · split
    · exact ⟨true, rfl, by simp; omega⟩
    · refine ⟨_, rfl, ?_⟩
      simp; omega

theorem allRuled_empty : AllRuled ResultCollector.empty := by
  intro s hs; simp [ResultCollector.empty] at hs

end Oclint
