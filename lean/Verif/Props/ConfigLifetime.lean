import Verif.Spec.ConfigLifetime
import Mathlib.Tactic.ByContra

/-!
# C68: configuration texts are read after their memory is freed
-/

namespace Oclint
open Spec

theorem readText_ok {alive : List Region} {t : TextRef} (h : t.text = [] ∨ t.region ∈ alive) :
    readText alive t = .ok t.text := by
  unfold readText
  by_cases h0 : t.text = []
  · simp [h0]
  · simp [h0, h.resolve_left h0]

theorem readText_ub {alive : List Region} {t : TextRef} (h : ¬ (t.text = [] ∨ t.region ∈ alive)) :
    readText alive t = .ub := by
  unfold readText
  simp only [not_or] at h
  simp [h.1, h.2]

theorem readTexts_ok {alive : List Region} {ts : List TextRef}
    (h : ∀ t ∈ ts, t.text = [] ∨ t.region ∈ alive) :
    readTexts alive ts = .ok (ts.map (·.text)) := by
  induction ts with
  | nil => rfl
  | cons t ts ih =>
    unfold readTexts
    rw [readText_ok (h t (by simp)), ih fun x hx => h x (by simp [hx])]
    rfl

theorem readTexts_ub {alive : List Region} {ts : List TextRef}
    (h : ¬ ∀ t ∈ ts, t.text = [] ∨ t.region ∈ alive) : readTexts alive ts = .ub := by
  induction ts with
  | nil => simp at h
  | cons t ts ih =>
    unfold readTexts
    by_cases ht : t.text = [] ∨ t.region ∈ alive
    · rw [readText_ok ht, ih fun hs => h (by
        intro x hx
        rcases List.mem_cons.1 hx with rfl | hx
        · exact ht
        · exact hs x hx)]
      rfl
    · rw [readText_ub ht]
      rfl

theorem readPairs_ok {alive : List Region} {ps : List (TextRef × TextRef)} (c : Configurations)
    (h : ∀ p ∈ ps, (p.1.text = [] ∨ p.1.region ∈ alive) ∧ (p.2.text = [] ∨ p.2.region ∈ alive)) :
    readPairs alive c ps =
      .ok ((ps.map fun p => (p.1.text, p.2.text)).foldl
        (fun c kv => c.addConfiguration kv.1 kv.2) c) := by
  induction ps generalizing c with
  | nil => rfl
  | cons p ps ih =>
    obtain ⟨k, v⟩ := p
    unfold readPairs
    have hp := h (k, v) (by simp)
    rw [readText_ok hp.1, readText_ok hp.2]
    exact ih _ fun x hx => h x (by simp [hx])

theorem readPairs_ub {alive : List Region} {ps : List (TextRef × TextRef)} (c : Configurations)
    (h : ¬ ∀ p ∈ ps, (p.1.text = [] ∨ p.1.region ∈ alive) ∧ (p.2.text = [] ∨ p.2.region ∈ alive)) :
    readPairs alive c ps = .ub := by
  induction ps generalizing c with
  | nil => simp at h
  | cons p ps ih =>
    obtain ⟨k, v⟩ := p
    unfold readPairs
    by_cases hk : k.text = [] ∨ k.region ∈ alive
    · rw [readText_ok hk]
      by_cases hv : v.text = [] ∨ v.region ∈ alive
      · rw [readText_ok hv]
        refine ih _ fun hs => h ?_
        intro x hx
        rcases List.mem_cons.1 hx with rfl | hx
        · exact ⟨hk, hv⟩
        · exact hs x hx
      · rw [readText_ub hv]
        rfl
    · rw [readText_ub hk]
      rfl

/-- If every text of the file that is not empty is in memory that is still there, processing the file
does what `applyConfigFile` (the model used by C13 and C14) says. -/
theorem C68_kept_alive (alive : List Region) (st : OptionState) (c : RefConfig)
    (h : ∀ t, TextOf c t → t.text = [] ∨ t.region ∈ alive) :
    applyRefConfig alive st c = .ok (applyConfigFile st (written c)) := by
  unfold applyRefConfig
  rw [readPairs_ok _ fun p hp => ⟨h _ (.key (v := p.2) hp), h _ (.value (k := p.1) hp)⟩,
    readTexts_ok fun t ht => h t (.path ht), readTexts_ok fun t ht => h t (.rule ht),
    readTexts_ok fun t ht => h t (.disabled ht), readText_ok (h _ .output),
    readText_ok (h _ .reportType)]
  rfl

/-- Otherwise it has undefined behaviour. -/
theorem C68_freed (alive : List Region) (st : OptionState) (c : RefConfig) (t : TextRef)
    (ht : TextOf c t) (hne : t.text ≠ []) (hdead : t.region ∉ alive) :
    applyRefConfig alive st c = .ub := by
  have bad : ¬ (t.text = [] ∨ t.region ∈ alive) := by simp [hne, hdead]
  unfold applyRefConfig
  by_cases h1 : ∀ p ∈ c.ruleConfigurations,
      (p.1.text = [] ∨ p.1.region ∈ alive) ∧ (p.2.text = [] ∨ p.2.region ∈ alive)
  rotate_left
  · rw [readPairs_ub _ h1]; rfl
  rw [readPairs_ok _ h1]
  by_cases h2 : ∀ t ∈ c.rulePaths, t.text = [] ∨ t.region ∈ alive
  rotate_left
  · rw [readTexts_ub h2]; rfl
  rw [readTexts_ok h2]
  by_cases h3 : ∀ t ∈ c.rules, t.text = [] ∨ t.region ∈ alive
  rotate_left
  · rw [readTexts_ub h3]; rfl
  rw [readTexts_ok h3]
  by_cases h4 : ∀ t ∈ c.disableRules, t.text = [] ∨ t.region ∈ alive
  rotate_left
  · rw [readTexts_ub h4]; rfl
  rw [readTexts_ok h4]
  by_cases h5 : c.output.text = [] ∨ c.output.region ∈ alive
  rotate_left
  · rw [readText_ub h5]; rfl
  rw [readText_ok h5]
  by_cases h6 : c.reportType.text = [] ∨ c.reportType.region ∈ alive
  rotate_left
  · rw [readText_ub h6]; rfl
  cases ht with
  | rule h => exact absurd (h3 _ h) bad
  | disabled h => exact absurd (h4 _ h) bad
  | path h => exact absurd (h2 _ h) bad
  | key h => exact absurd (h1 _ h).1 bad
  | value h => exact absurd (h1 _ h).2 bad
  | output => exact absurd h5 bad
  | reportType => exact absurd h6 bad

/-- Nothing the texts point to outlives the constructor. -/
theorem C68_nothing_alive (fs : Str → Option Str) (yaml : Str → RefConfig) (path : Str) :
    (RefConfig.read fs yaml path).2 = [] := by
  unfold RefConfig.read
  cases fs path with
  | none => rfl
  | some content => by_cases h : content.all (fun c => decide (c ∈ configBlanks)) <;> simp [h]

theorem all_blank_iff (content : Str) :
    content.all (fun c => decide (c ∈ configBlanks)) = true ↔ ¬ HasContent content := by
  constructor
  · rintro h ⟨c, hc, hn⟩
    exact hn (of_decide_eq_true (List.all_eq_true.1 h c hc))
  · intro h
    refine List.all_eq_true.2 fun c hc => decide_eq_true ?_
    by_contra hn
    exact h ⟨c, hc, hn⟩

/-- Processing a configuration file is undefined exactly if the file can be read, is not blank, and
has a text entry that is not empty. -/
theorem C68_undefined_iff (fs : Str → Option Str) (yaml : Str → RefConfig) (st : OptionState)
    (path : Str) :
    processRefConfig fs yaml st path = .ub ↔
      HasText fs yaml path := by
  have initialOk : ∀ t, TextOf RefConfig.initial t → t.text = [] := by
    intro t ht
    cases ht with
    | rule h => simp [RefConfig.initial] at h
    | disabled h => simp [RefConfig.initial] at h
    | path h => simp [RefConfig.initial] at h
    | key h => simp [RefConfig.initial] at h
    | value h => simp [RefConfig.initial] at h
    | output => rfl
    | reportType => rfl
  unfold processRefConfig HasText
  rw [C68_nothing_alive]
  cases hf : fs path with
  | none =>
    have : (RefConfig.read fs yaml path).1 = .initial := by simp [RefConfig.read, hf]
    rw [this, C68_kept_alive _ _ _ fun t ht => Or.inl (initialOk t ht)]
    simp
  | some content =>
    by_cases hb : HasContent content
    · have hall : ¬ content.all (fun c => decide (c ∈ configBlanks)) = true := fun h =>
        (all_blank_iff content).1 h hb
      have : (RefConfig.read fs yaml path).1 = yaml content := by
        simp only [RefConfig.read, hf]
        rw [if_neg hall]
      rw [this]
      constructor
      · intro hub
        refine ⟨content, rfl, hb, ?_⟩
        by_contra hno
        rw [C68_kept_alive _ _ _ fun t ht => Or.inl (by
          by_contra hne
          exact hno ⟨t, ht, hne⟩)] at hub
        cases hub
      · rintro ⟨c', hc', -, t, ht, hne⟩
        cases hc'
        exact C68_freed _ _ _ t ht hne (by simp)
    · have hall := (all_blank_iff content).2 hb
      have : (RefConfig.read fs yaml path).1 = .initial := by
        simp only [RefConfig.read, hf]
        rw [if_pos hall]
      rw [this, C68_kept_alive _ _ _ fun t ht => Or.inl (initialOk t ht)]
      constructor
      · intro h; cases h
      · rintro ⟨c', hc', hb', -⟩
        cases hc'
        exact absurd hb' hb

/-- A file that only sets numbers and switches is processed as C13 says. -/
theorem C68_numbers_only (fs : Str → Option Str) (yaml : Str → RefConfig) (st : OptionState)
    (path content : Str) (hf : fs path = some content) (hb : HasContent content)
    (h : ∀ t, TextOf (yaml content) t → t.text = []) :
    processRefConfig fs yaml st path = .ok (applyConfigFile st (written (yaml content))) := by
  have hall : ¬ content.all (fun c => decide (c ∈ configBlanks)) = true := fun hh =>
    (all_blank_iff content).1 hh hb
  have : (RefConfig.read fs yaml path).1 = yaml content := by
    simp only [RefConfig.read, hf]
    rw [if_neg hall]
  unfold processRefConfig
  rw [this]
  exact C68_kept_alive _ _ _ fun t ht => Or.inl (h t ht)

theorem processRefConfig_ok (fs : Str → Option Str) (yaml : Str → RefConfig) (st : OptionState)
    (path : Str) (h : ¬ HasText fs yaml path) :
    processRefConfig fs yaml st path =
      .ok (applyConfigFile st (ConfigFile.read fs (fun c => written (yaml c)) path)) := by
  cases hf : fs path with
  | none =>
    simp only [processRefConfig, RefConfig.read, ConfigFile.read, hf]
    rfl
  | some content =>
    by_cases hb : HasContent content
    · have hall : ¬ content.all (fun c => decide (c ∈ configBlanks)) = true := fun hh =>
        (all_blank_iff content).1 hh hb
      rw [C68_numbers_only fs yaml st path content hf hb fun t ht => by
        by_contra hne
        exact h ⟨content, hf, hb, t, ht, hne⟩]
      simp only [ConfigFile.read, hf]
      rw [if_neg hall]
    · have hall := (all_blank_iff content).2 hb
      simp only [processRefConfig, RefConfig.read, ConfigFile.read, hf]
      rw [if_pos hall, if_pos hall]
      rfl

theorem processRefConfigFiles_ok (fs : Str → Option Str) (yaml : Str → RefConfig)
    (paths : List Str) (st : OptionState) (h : ∀ p ∈ paths, ¬ HasText fs yaml p) :
    processRefConfigFiles fs yaml paths st =
      .ok (paths.foldl (fun st path =>
        applyConfigFile st (ConfigFile.read fs (fun c => written (yaml c)) path)) st) := by
  induction paths generalizing st with
  | nil => rfl
  | cons p ps ih =>
    unfold processRefConfigFiles
    rw [processRefConfig_ok fs yaml st p (h p (by simp))]
    exact ih _ fun q hq => h q (by simp [hq])

theorem processRefConfigFiles_ub (fs : Str → Option Str) (yaml : Str → RefConfig)
    (paths : List Str) (st : OptionState) (h : ∃ p ∈ paths, HasText fs yaml p) :
    processRefConfigFiles fs yaml paths st = .ub := by
  induction paths generalizing st with
  | nil => simp at h
  | cons p ps ih =>
    unfold processRefConfigFiles
    by_cases hp : HasText fs yaml p
    · rw [(C68_undefined_iff fs yaml st p).2 hp]
      rfl
    · rw [processRefConfig_ok fs yaml st p hp]
      obtain ⟨q, hq, ht⟩ := h
      rcases List.mem_cons.1 hq with rfl | hq
      · exact absurd ht hp
      · exact ih _ ⟨q, hq, ht⟩

theorem mem_configFilePaths (e : Env) (cli : CommandLine) (path : Str) :
    path ∈ configFilePaths e (preserveWorkingPath e (OptionState.afterParsing cli)) ↔
      Consulted e path := by
  have hw : (preserveWorkingPath e (OptionState.afterParsing cli)).workingPath =
      if e.cwd.length < 300 then e.cwd else [] := by
    unfold preserveWorkingPath
    by_cases h : e.cwd.length < 300
    · rw [if_pos (by omega), if_pos h]
    · rw [if_neg (by omega), if_neg h]
      rfl
  have hetc : e.etcPath ++ "/oclint".toList = e.binPath ++ "/../etc/oclint".toList := by
    simp [Env.etcPath, Env.installPrefix]
  unfold configFilePaths Consulted
  rw [hw, hetc]
  cases hh : e.home with
  | none => simp [Env.homePath, hh]
  | some home =>
    by_cases h0 : home = []
    · simp [Env.homePath, hh, h0]
    · simp [Env.homePath, hh, h0, List.length_pos_iff]

/-- If no consulted file has a text, option processing is what the model of C13, C14, C16 and C17
says. -/
theorem C68_options_defined (e : Env) (yaml : Str → RefConfig) (cli : CommandLine)
    (h : ∀ p, Consulted e p → ¬ HasText e.fs yaml p) :
    processRefOptions e yaml cli = processOptions (keeping e yaml) cli := by
  unfold processRefOptions
  simp only []
  rw [processRefConfigFiles_ok e.fs yaml _ _ fun p hp => h p ((mem_configFilePaths e cli p).1 hp)]
  rfl

/-- If one has, option processing, and so the whole run, has undefined behaviour. -/
theorem C68_options_undefined (e : Env) (yaml : Str → RefConfig) (cli : CommandLine) (p : Str)
    (hp : Consulted e p) (ht : HasText e.fs yaml p) :
    processRefOptions e yaml cli = .ub := by
  unfold processRefOptions
  simp only []
  rw [processRefConfigFiles_ub e.fs yaml _ _ ⟨p, (mem_configFilePaths e cli p).2 hp, ht⟩]
  rfl

/-- A file that disables one rule: undefined behaviour. -/
theorem C68_witness :
    processRefConfig (fun _ => some "disable-rules: [LongLine]".toList)
      (fun _ => { RefConfig.initial with disableRules := [⟨.buffer, "LongLine".toList⟩] })
      (OptionState.afterParsing {}) "/etc/oclint".toList = .ub := by
  refine (C68_undefined_iff _ _ _ _).2 ⟨_, rfl, ⟨'d', by simp, by decide⟩,
    ⟨.buffer, "LongLine".toList⟩, .disabled (by simp), by simp⟩

/-- A file that sets one limit: fine, and the limit arrives. -/
example :
    ∃ st, processRefConfig (fun _ => some "max-priority-1: 7".toList)
      (fun _ => { RefConfig.initial with maxP1 := 7 })
      (OptionState.afterParsing {}) "/etc/oclint".toList = .ok st ∧ st.argMaxP1.value = 7 :=
  ⟨_, rfl, rfl⟩

end Oclint
