import Verif.Spec.Console
import Verif.Lemmas.Main
import Verif.Lemmas.Run

/-!
# Lemmas about loading plugins with messages
-/

namespace Oclint
open Spec

variable {U σ κ : Type}

/-! ## Rules -/

/-- Opening libraries, with messages. -/
def loudOpen (dlerror : Str → Str) (lib : Str → Option (List RuleId)) :
    LoaderState → List Str → Loud LoaderState
  | st, [] => pure st
  | st, p :: ps =>
    match openRuleLibrary lib st p with
    | none => libraryError dlerror p
    | some st' => loudOpen dlerror lib st' ps

theorem loudOpen_append (dlerror : Str → Str) (lib : Str → Option (List RuleId)) (ps qs : List Str)
    (st : LoaderState) :
    loudOpen dlerror lib st (ps ++ qs) =
      (do let st' ← loudOpen dlerror lib st ps; loudOpen dlerror lib st' qs) := by
  induction ps generalizing st with
  | nil => rfl
  | cons p ps ih =>
    simp only [List.cons_append, loudOpen]
    split
    · rfl
    · exact ih _

theorem loudRuleEntries_eq (dlerror : Str → Str) (lib : Str → Option (List RuleId)) (dir : Str)
    (names : List Str) (st : LoaderState) :
    loudRuleEntries dlerror lib dir st names =
      loudOpen dlerror lib st
        ((names.filter fun n => decide (n.head? ≠ some '.')).map fun n => dir ++ '/' :: n) := by
  induction names generalizing st with
  | nil => rfl
  | cons n t ih =>
    rw [loudRuleEntries]
    by_cases h : isDotEntry n = true
    · have h' := (isDotEntry_iff n).1 h
      rw [if_pos h, ih, List.filter_cons_of_neg (by simp [h'])]
    · have h' : n.head? ≠ some '.' := fun e => h ((isDotEntry_iff n).2 e)
      rw [if_neg h, List.filter_cons_of_pos (by simp [h']), List.map_cons, loudOpen]
      have e : dir ++ "/".toList ++ n = dir ++ '/' :: n := by simp
      simp only [e, ih]
      rfl

theorem loudLoadRules_eq (dlerror : Str → Str) (ls : Listing) (lib : Str → Option (List RuleId))
    (st : LoaderState) (dir : Str) :
    loudLoadRules dlerror ls lib st dir = loudOpen dlerror lib st (pluginPaths ls dir) := by
  unfold loudLoadRules pluginPaths
  cases h : ls dir with
  | none => rfl
  | some names => exact loudRuleEntries_eq dlerror lib dir names st

theorem loudRulesPath_eq (dlerror : Str → Str) (ls : Listing) (lib : Str → Option (List RuleId))
    (dirs : List Str) (st : LoaderState) :
    loudRulesPath dlerror ls lib st dirs = loudOpen dlerror lib st (dirs.flatMap (pluginPaths ls)) := by
  induction dirs generalizing st with
  | nil => rfl
  | cons d ds ih =>
    rw [loudRulesPath, List.flatMap_cons, loudOpen_append, loudLoadRules_eq]
    congr 1
    funext st'
    exact ih st'

theorem loudOpen_result (dlerror : Str → Str) (lib : Str → Option (List RuleId)) (ps : List Str)
    (st : LoaderState) : (loudOpen dlerror lib st ps).result = openAll lib st ps := by
  induction ps generalizing st with
  | nil => rfl
  | cons p ps ih =>
    simp only [loudOpen, openAll]
    cases openRuleLibrary lib st p with
    | none => rfl
    | some st' => exact ih _

theorem loudOpen_said (dlerror : Str → Str) {lib : Str → Option (List RuleId)} (ps : List Str)
    (st : LoaderState) (h : ∀ p ∈ ps, (lib p).isSome) : (loudOpen dlerror lib st ps).said = [] := by
  induction ps generalizing st with
  | nil => rfl
  | cons p ps ih =>
    obtain ⟨rules, hr⟩ := Option.isSome_iff_exists.1 (h p (by simp))
    have ht : ∀ q ∈ ps, (lib q).isSome := fun q hq => h q (by simp [hq])
    simp only [loudOpen]
    split
    · next hn => simp [openRuleLibrary, hr] at hn; split at hn <;> cases hn
    · exact ih _ ht

theorem loudOpen_broken (dlerror : Str → Str) {lib : Str → Option (List RuleId)} (pre : List Str)
    (p : Str) (post : List Str) (st : LoaderState) (hpre : ∀ q ∈ pre, (lib q).isSome)
    (hp : lib p = none) : loudOpen dlerror lib st (pre ++ p :: post) = libraryError dlerror p := by
  rw [loudOpen_append]
  have h1 := loudOpen_said dlerror pre st hpre
  have h2 := loudOpen_result dlerror lib pre st
  obtain ⟨st', h3, _⟩ := openAll_ok pre st hpre
  rw [h3] at h2
  generalize loudOpen dlerror lib st pre = x at h1 h2
  obtain ⟨s, r⟩ := x
  subst h1 h2
  rw [loud_ok]
  simp [loudOpen, openRuleLibrary, hp]

theorem loudRulesPath_result (dlerror : Str → Str) (ls : Listing) (lib : Str → Option (List RuleId))
    (st : LoaderState) (dirs : List Str) :
    (loudRulesPath dlerror ls lib st dirs).result = consumeArgRulesPath ls lib st dirs := by
  rw [loudRulesPath_eq, loudOpen_result, consumeArgRulesPath_eq]

/-- Loading the rules. -/
theorem loudRules_cases (m : Machine U σ κ) (dlerror : Str → Str) (st : OptionState) :
    (∃ p, BrokenRule m st p ∧
      loudRulesPath dlerror m.listing m.ruleLibrary ⟨[], none⟩ (rulesPath m.env st) =
        libraryError dlerror p) ∨
    (NoRules m st ∧ ∃ ld,
      loudRulesPath dlerror m.listing m.ruleLibrary ⟨[], none⟩ (rulesPath m.env st) = ⟨[], .ok ld⟩ ∧
        ld.registry.numberOfRules ≤ 0) ∨
    (RulesLoad m st ∧ ∃ ld,
      loudRulesPath dlerror m.listing m.ruleLibrary ⟨[], none⟩ (rulesPath m.env st) = ⟨[], .ok ld⟩ ∧
        ¬ ld.registry.numberOfRules ≤ 0 ∧
        ld.registry = registryAfter
          (((rulesPath m.env st).flatMap (pluginPaths m.listing)).eraseDups.flatMap
            fun p => (m.ruleLibrary p).getD [])) := by
  rcases all_or_first m.ruleLibrary ((rulesPath m.env st).flatMap (pluginPaths m.listing)) with
    hall | ⟨pre, p, post, h1, h2, h3⟩
  · have hs := loudOpen_said dlerror _ ⟨[], none⟩ hall
    have hr := loudRulesPath_result dlerror m.listing m.ruleLibrary ⟨[], none⟩ (rulesPath m.env st)
    rw [← loudRulesPath_eq] at hs
    generalize hx : loudRulesPath dlerror m.listing m.ruleLibrary ⟨[], none⟩ (rulesPath m.env st) = x
      at hs hr
    obtain ⟨s, r⟩ := x
    simp only at hs hr
    subst hs hr
    right
    rcases loading_spec m st with ⟨hl, ld, h1, h2, h3⟩ | ⟨hl, ⟨w, h1⟩ | ⟨ld, h1, h2⟩⟩
    · right
      exact ⟨hl, ld, by rw [h1], h2, h3⟩
    · exfalso
      rw [consumeArgRulesPath_eq] at h1
      obtain ⟨st', h4, _⟩ := openAll_ok _ ⟨[], none⟩ hall
      rw [h4] at h1
      cases h1
    · left
      refine ⟨fun p hp => ?_, ld, by rw [h1], h2⟩
      obtain ⟨rs, hrs⟩ := Option.isSome_iff_exists.1 (hall p hp)
      cases rs with
      | nil => exact hrs
      | cons r rs => exact absurd ⟨hall, p, hp, r, rs, hrs⟩ hl
  · left
    refine ⟨p, ⟨pre, post, h1, h2, h3⟩, ?_⟩
    rw [loudRulesPath_eq, h1, loudOpen_broken dlerror pre p post _ h2 h3]

theorem first_unique {α : Type} {P : α → Prop} {l pre pre' post post' : List α} {a b : α}
    (h1 : l = pre ++ a :: post) (h2 : l = pre' ++ b :: post') (hp : ∀ x ∈ pre, P x) (ha : ¬ P a)
    (hq : ∀ x ∈ pre', P x) (hb : ¬ P b) : a = b := by
  induction pre generalizing l pre' with
  | nil =>
    cases pre' with
    | nil => rw [h1] at h2; exact (List.cons.inj h2).1
    | cons y ys =>
      rw [h1] at h2
      exact absurd (hq y (by simp)) ((List.cons.inj h2).1 ▸ ha)
  | cons x xs ih =>
    cases pre' with
    | nil =>
      rw [h1] at h2
      exact absurd (hp x (by simp)) ((List.cons.inj h2).1 ▸ hb)
    | cons y ys =>
      rw [h1] at h2
      exact ih rfl (List.cons.inj h2).2 (fun z hz => hp z (by simp [hz])) (fun z hz => hq z (by simp [hz]))

theorem brokenRule_unique {m : Machine U σ κ} {st : OptionState} {p q : Str} (hp : BrokenRule m st p)
    (hq : BrokenRule m st q) : p = q := by
  obtain ⟨b, a, h1, h2, h3⟩ := hp
  obtain ⟨b', a', h4, h5, h6⟩ := hq
  exact first_unique (P := fun q => (m.ruleLibrary q).isSome) h1 h4 h2 (by simp [h3]) h5 (by simp [h6])

theorem brokenRule_not_load {m : Machine U σ κ} {st : OptionState} {p : Str} (hp : BrokenRule m st p) :
    ¬ RulesLoad m st := by
  obtain ⟨b, a, h1, h2, h3⟩ := hp
  intro hl
  have := hl.1 p (by rw [h1]; simp)
  rw [h3] at this
  cases this

theorem brokenRule_not_none {m : Machine U σ κ} {st : OptionState} {p : Str} (hp : BrokenRule m st p) :
    ¬ NoRules m st := by
  obtain ⟨b, a, h1, h2, h3⟩ := hp
  intro hl
  have := hl p (by rw [h1]; simp)
  rw [h3] at this
  cases this

theorem noRules_not_load {m : Machine U σ κ} {st : OptionState} (hn : NoRules m st) :
    ¬ RulesLoad m st := by
  rintro ⟨_, p, hp, r, rs, hr⟩
  have := hn p hp
  rw [hr] at this
  cases this

/-! ## Reporters -/

/-- The search for the reporter, with messages. -/
def loudSearch (dlerror : Str → Str) (lib : Str → Option ReporterLibrary) (reportType : Str) :
    List Str → Loud (Option Str)
  | [] => pure none
  | path :: rest =>
    match lib path with
    | none => libraryError dlerror path
    | some none => .quiet .ub
    | some (some name) =>
      if name = reportType then pure (some path) else loudSearch dlerror lib reportType rest

theorem loudReporterEntries_eq (dlerror : Str → Str) (lib : Str → Option ReporterLibrary)
    (reportType dir : Str) (names : List Str) :
    loudReporterEntries dlerror lib reportType dir names =
      loudSearch dlerror lib reportType
        ((names.filter fun n => decide (n.head? ≠ some '.')).map fun n => dir ++ '/' :: n) := by
  induction names with
  | nil => rfl
  | cons n t ih =>
    rw [loudReporterEntries]
    by_cases h : isDotEntry n = true
    · have h' := (isDotEntry_iff n).1 h
      rw [if_pos h, ih, List.filter_cons_of_neg (by simp [h'])]
    · have h' : n.head? ≠ some '.' := fun e => h ((isDotEntry_iff n).2 e)
      rw [if_neg h, List.filter_cons_of_pos (by simp [h']), List.map_cons, loudSearch]
      have e : dir ++ "/".toList ++ n = dir ++ '/' :: n := by simp
      simp only [e, ih]
      rfl

theorem loudReporter_eq (dlerror : Str → Str) (ls : Listing) (lib : Str → Option ReporterLibrary)
    (reportType dir : Str) :
    loudReporter dlerror ls lib reportType dir =
      (loudSearch dlerror lib reportType (pluginPaths ls dir) >>= selectedOrThrow reportType) := by
  unfold loudReporter pluginPaths
  cases h : ls dir with
  | none => rfl
  | some names => simp only [loudReporterEntries_eq]

theorem loudSearch_prefix (dlerror : Str → Str) {lib : Str → Option ReporterLibrary} {reportType : Str}
    (pre rest : List Str)
    (hpre : ∀ q ∈ pre, ∃ n, lib q = some (some n) ∧ n ≠ reportType) :
    loudSearch dlerror lib reportType (pre ++ rest) = loudSearch dlerror lib reportType rest := by
  induction pre with
  | nil => rfl
  | cons p ps ih =>
    obtain ⟨n, hn, hne⟩ := hpre p (by simp)
    rw [List.cons_append, loudSearch, hn]
    simp only [if_neg hne]
    exact ih fun q hq => hpre q (by simp [hq])

/-- Loading the reporter. -/
theorem loudReporter_cases (m : Machine U σ κ) (dlerror : Str → Str) (st : OptionState) :
    (∃ p, BrokenReporter m st p ∧
      loudReporter dlerror m.listing m.reporterLibrary st.argReportType.value (reporterDir m.env) =
        libraryError dlerror p ∧
      loadReporter m.listing m.reporterLibrary st.argReportType.value (reporterDir m.env) =
        .throws ("cannot open dynamic library: ".toList ++ p)) ∨
    ((∀ q ∈ pluginPaths m.listing (reporterDir m.env), OtherReporter m st q) ∧
      loudReporter dlerror m.listing m.reporterLibrary st.argReportType.value (reporterDir m.env) =
        ⟨[], .throws ("cannot find dynamic library for report type: ".toList ++
          st.argReportType.value)⟩ ∧
      loadReporter m.listing m.reporterLibrary st.argReportType.value (reporterDir m.env) =
        .throws ("cannot find dynamic library for report type: ".toList ++
          st.argReportType.value)) ∨
    ((∀ p, ¬ ReporterAt m st p ∧ ¬ BrokenReporter m st p) ∧
      (¬ ∀ q ∈ pluginPaths m.listing (reporterDir m.env), OtherReporter m st q) ∧
      loudReporter dlerror m.listing m.reporterLibrary st.argReportType.value (reporterDir m.env) =
        ⟨[], .ub⟩ ∧
      loadReporter m.listing m.reporterLibrary st.argReportType.value (reporterDir m.env) = .ub) ∨
    (∃ p, ReporterAt m st p ∧
      loudReporter dlerror m.listing m.reporterLibrary st.argReportType.value (reporterDir m.env) =
        ⟨[], .ok p⟩ ∧
      loadReporter m.listing m.reporterLibrary st.argReportType.value (reporterDir m.env) = .ok p) := by
  rw [loudReporter_eq, loadReporter_eq]
  unfold ReporterAt BrokenReporter
  generalize pluginPaths m.listing (reporterDir m.env) = ps
  rcases other_or_decisive m.reporterLibrary st.argReportType.value ps with
    hall | ⟨pre, p, post, h1, h2, h3⟩
  · right; left
    refine ⟨hall, ?_⟩
    have e1 := loudSearch_prefix dlerror ps [] hall
    have e2 := searchReporter_prefix ps [] hall
    rw [List.append_nil] at e1 e2
    rw [e1, e2]
    exact ⟨rfl, rfl⟩
  · have hun : ∀ b q a, ps = b ++ q :: a → (∀ x ∈ b, OtherReporter m st x) → ¬ OtherReporter m st q →
        p = q := fun b q a h4 h5 h6 => first_unique (P := OtherReporter m st) h1 h4 h2 h3 h5 h6
    have e1 := loudSearch_prefix dlerror pre (p :: post) h2
    have e2 := searchReporter_prefix pre (p :: post) h2
    rw [← h1] at e1 e2
    rw [e1, e2, loudSearch, searchReporter]
    generalize hl : m.reporterLibrary p = lib at h3
    cases lib with
    | none =>
      left
      exact ⟨p, ⟨pre, post, h1, h2, hl⟩, rfl, rfl⟩
    | some n =>
      cases n with
      | none =>
        right; right; left
        refine ⟨fun q => ⟨?_, ?_⟩, ?_, rfl, rfl⟩
        · rintro ⟨b, a, h4, h5, h6⟩
          have := hun b q a h4 h5 (by rintro ⟨n, hn, hne⟩; rw [h6] at hn; cases hn; exact hne rfl)
          subst this
          rw [hl] at h6; cases h6
        · rintro ⟨b, a, h4, h5, h6⟩
          have := hun b q a h4 h5 (by rintro ⟨n, hn, hne⟩; rw [h6] at hn; cases hn)
          subst this
          rw [hl] at h6; cases h6
        · intro h
          obtain ⟨n, hn, -⟩ := h p (by rw [h1]; simp)
          rw [hl] at hn; cases hn
      | some n =>
        right; right; right
        have hn : n = st.argReportType.value := by
          by_contra hne
          exact h3 ⟨n, rfl, hne⟩
        subst hn
        refine ⟨p, ⟨pre, post, h1, h2, hl⟩, ?_⟩
        simp only [if_true]
        exact ⟨rfl, rfl⟩

theorem brokenReporter_other {m : Machine U σ κ} {st : OptionState} {p : Str}
    (h : BrokenReporter m st p) :
    ∃ b a, pluginPaths m.listing (reporterDir m.env) = b ++ p :: a ∧
      (∀ q ∈ b, OtherReporter m st q) ∧ ¬ OtherReporter m st p := by
  obtain ⟨b, a, h1, h2, h3⟩ := h
  exact ⟨b, a, h1, h2, by rintro ⟨n, hn, -⟩; rw [h3] at hn; cases hn⟩

theorem reporterAt_other {m : Machine U σ κ} {st : OptionState} {p : Str}
    (h : ReporterAt m st p) :
    ∃ b a, pluginPaths m.listing (reporterDir m.env) = b ++ p :: a ∧
      (∀ q ∈ b, OtherReporter m st q) ∧ ¬ OtherReporter m st p := by
  obtain ⟨b, a, h1, h2, h3⟩ := h
  exact ⟨b, a, h1, h2, by rintro ⟨n, hn, hne⟩; rw [h3] at hn; cases hn; exact hne rfl⟩

theorem decisive_unique {m : Machine U σ κ} {st : OptionState} {p q : Str}
    (h1 : ∃ b a, pluginPaths m.listing (reporterDir m.env) = b ++ p :: a ∧
      (∀ q ∈ b, OtherReporter m st q) ∧ ¬ OtherReporter m st p)
    (h2 : ∃ b a, pluginPaths m.listing (reporterDir m.env) = b ++ q :: a ∧
      (∀ q ∈ b, OtherReporter m st q) ∧ ¬ OtherReporter m st q) : p = q := by
  obtain ⟨b, a, h3, h4, h5⟩ := h1
  obtain ⟨b', a', h6, h7, h8⟩ := h2
  exact first_unique (P := OtherReporter m st) h3 h6 h4 h5 h7 h8

theorem decisive_not_all {m : Machine U σ κ} {st : OptionState} {p : Str}
    (h1 : ∃ b a, pluginPaths m.listing (reporterDir m.env) = b ++ p :: a ∧
      (∀ q ∈ b, OtherReporter m st q) ∧ ¬ OtherReporter m st p) :
    ¬ ∀ q ∈ pluginPaths m.listing (reporterDir m.env), OtherReporter m st q := by
  obtain ⟨b, a, h3, h4, h5⟩ := h1
  intro h
  exact h5 (h p (by rw [h3]; simp))

theorem reporterAt_iff (m : Machine U σ κ) (st : OptionState) (p : Str) :
    ReporterAt m st p ↔
      loadReporter m.listing m.reporterLibrary st.argReportType.value (reporterDir m.env) = .ok p := by
  rcases loudReporter_cases m id st with ⟨q, h1, -, h2⟩ | ⟨h1, -, h2⟩ | ⟨h1, -, -, h2⟩ | ⟨q, h1, -, h2⟩
  all_goals rw [h2]
  · refine ⟨fun h => ?_, fun h => nomatch h⟩
    have := decisive_unique (brokenReporter_other h1) (reporterAt_other h)
    subst this
    obtain ⟨_, _, _, _, h3⟩ := h1
    obtain ⟨_, _, _, _, h4⟩ := h
    rw [h3] at h4; cases h4
  · exact ⟨fun h => absurd h1 (decisive_not_all (reporterAt_other h)), fun h => nomatch h⟩
  · exact ⟨fun h => absurd h (h1 p).1, fun h => nomatch h⟩
  · refine ⟨fun h => ?_, fun h => ?_⟩
    · rw [decisive_unique (reporterAt_other h1) (reporterAt_other h)]
    · cases h; exact h1

end Oclint
