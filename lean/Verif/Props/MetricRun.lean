import Verif.Props.Catalogue
import Verif.Props.Options
import Verif.Props.SourceLines
import Verif.Props.Thresholds
import Verif.Props.TreeRun
import Verif.Spec.MetricRun

/-!
# C106: limits, from the settings to the exit code
-/

namespace Oclint
open Spec

variable {κ : Type}

/-- The rules are what their documentation calls them. -/
theorem C106_classes (r : MetricRule) :
    (metricClass r).name = (limitRuleNames r).1 ∧ (metricClass r).attributeName = (limitRuleNames r).1 ∧
      shippedPriority (metricId r) = (limitRuleNames r).2 ∧ IsShipped (metricId r) := by
  unfold IsShipped
  cases r <;> decide +kernel

theorem metric_masks (r : MetricRule) :
    (∀ l : Language, (metricClass r).supportedLanguages.getLsbD l.bit = true) ∧
      (metricClass r).cudaAttrs.getLsbD 0 = true ∧
      ((metricClass r).cudaAttrs.getLsbD 1 = true ↔ r = .cyclomatic) := by
  refine ⟨?_, ?_, ?_⟩
  · intro l
    cases r <;> cases l <;> decide +kernel
  · cases r <;> decide +kernel
  · cases r <;> decide +kernel

theorem metric_concerned (cfg : Configurations) (sights : TreeUnit → Nat → List Sight) (r : MetricRule)
    (u : TreeUnit) : Concerned (metricVisitor cfg sights r) u ↔ InSomeLanguage u := by
  obtain ⟨h1, h2, -⟩ := metric_masks r
  unfold Concerned InSomeLanguage metricVisitor
  simp only
  constructor
  · rintro (h | ⟨⟨l, h, -⟩, -⟩)
    · exact .inl h
    · exact .inr ⟨l, h⟩
  · rintro (h | ⟨l, h⟩)
    · exact .inl h
    · exact .inr ⟨⟨l, h, h1 l⟩, h2⟩

theorem metric_shown (cfg : Configurations) (sights : TreeUnit → Nat → List Sight) (r : MetricRule)
    (u : TreeUnit) : shownDecls (metricVisitor cfg sights r) u = limitDecls r u := by
  obtain ⟨-, h2, h3⟩ := metric_masks r
  unfold shownDecls limitDecls metricVisitor WantsCUDA
  simp only
  congr 1
  refine List.filter_congr fun d _ => ?_
  rw [decide_eq_decide]
  refine and_congr Iff.rfl (imp_congr Iff.rfl (imp_congr Iff.rfl ?_))
  cases d.hasCUDAGlobal with
  | true => simpa using h3
  | false => simpa using h2

theorem visitSights_eq {cfg : Configurations} {r : MetricRule} {t : Int} (ht : LimitIs cfg r t)
    (hp : r = .parameters ∨ r = .longName → 0 ≤ t) {ss : List Sight} {fs : List Finding}
    (h : Oversized r t ss fs) : visitSights cfg (stored r t) r ss = .ok fs := by
  induction h with
  | nil => rfl
  | above ha hm hlt _ ih =>
    unfold visitSights
    rw [visit_above ht hp ha hm, if_pos hlt, bind_ok', ih, bind_ok']
    rfl
  | notAbove ha hm hle _ ih =>
    unfold visitSights
    rw [visit_above ht hp ha hm, if_neg (by omega), bind_ok', ih, bind_ok']
    rfl
  | other ha _ ih =>
    unfold visitSights
    rw [visit_other ha, bind_ok', ih, bind_ok']
    rfl

theorem oversized_append {r : MetricRule} {t : Int} (ss ss' : List Sight) (fs : List Finding)
    (h : Oversized r t (ss ++ ss') fs) :
    ∃ gs gs', fs = gs ++ gs' ∧ Oversized r t ss gs ∧ Oversized r t ss' gs' := by
  induction ss generalizing fs with
  | nil => exact ⟨[], fs, rfl, .nil, h⟩
  | cons s ss ih =>
    cases h with
    | above ha hm hlt h =>
      obtain ⟨gs, gs', rfl, h1, h2⟩ := ih _ h
      exact ⟨_ :: gs, gs', rfl, .above ha hm hlt h1, h2⟩
    | notAbove ha hm hle h =>
      obtain ⟨gs, gs', rfl, h1, h2⟩ := ih _ h
      exact ⟨gs, gs', rfl, .notAbove ha hm hle h1, h2⟩
    | other ha h =>
      obtain ⟨gs, gs', rfl, h1, h2⟩ := ih _ h
      exact ⟨gs, gs', rfl, .other ha h1, h2⟩

theorem metric_visits {cfg : Configurations} {r : MetricRule} {t : Int} (ht : LimitIs cfg r t)
    (hp : r = .parameters ∨ r = .longName → 0 ≤ t) (sights : TreeUnit → Nat → List Sight)
    (u : TreeUnit) (ds : List Nat) (fs : List Finding)
    (h : Oversized r t (ds.flatMap (sights u)) fs) :
    Visits (metricVisitor cfg sights r) u (stored r t) ds fs (stored r t) := by
  induction ds generalizing fs with
  | nil => cases h; exact .nil _
  | cons d ds ih =>
    rw [List.flatMap_cons] at h
    obtain ⟨gs, gs', rfl, h1, h2⟩ := oversized_append _ _ _ h
    refine .cons (t' := stored r t) ?_ (ih _ h2)
    unfold metricVisitor
    simp only
    rw [visitSights_eq ht hp h1, bind_ok']
    rfl

/-- What such a rule finds in a unit: it does not depend on what it found before. -/
theorem C106_unit (cfg : Configurations) (sights : TreeUnit → Nat → List Sight) (r : MetricRule)
    (t : Int) (ht : LimitIs cfg r t) (hp : r = .parameters ∨ r = .longName → 0 ≤ t) (u : TreeUnit)
    (fs : List Finding) (h : LimitFindings sights r t u fs) :
    Steady (metricVisitor cfg sights r) u fs := by
  intro t0
  rcases h with ⟨hc, h⟩ | ⟨hc, rfl⟩
  · refine ⟨stored r t, ?_⟩
    have := FindsIn.looked (r := metricVisitor cfg sights r) (u := u) (t := t0) (t0 := stored r t)
      (t1 := stored r t) (t2 := stored r t) (fs := fs) (gs := [])
      ((metric_concerned cfg sights r u).2 hc) (setUp_eq ht fun e => hp (.inl e))
      (by rw [metric_shown]; exact metric_visits ht hp sights u _ fs h) rfl
    rwa [List.append_nil] at this
  · exact ⟨t0, .skipped t0 fun h => hc ((metric_concerned cfg sights r u).1 h)⟩

/-- There is exactly one list of such findings if the constructs can be measured. -/
theorem C106_findings_unique (sights : TreeUnit → Nat → List Sight) (r : MetricRule) (t : Int)
    (u : TreeUnit)
    (hm : ∀ d ∈ limitDecls r u, ∀ s ∈ sights u d, Applies r s.construct →
      ∃ m, Measure r s.construct m) : ∃! fs, LimitFindings sights r t u fs := by
  have hex : ∀ ss : List Sight, (∀ s ∈ ss, Applies r s.construct → ∃ m, Measure r s.construct m) →
      ∃ fs, Oversized r t ss fs := by
    intro ss
    induction ss with
    | nil => exact fun _ => ⟨[], .nil⟩
    | cons s ss ih =>
      intro h
      obtain ⟨fs, hfs⟩ := ih fun s hs => h s (List.mem_cons_of_mem _ hs)
      by_cases ha : Applies r s.construct
      · obtain ⟨m, hm⟩ := h s List.mem_cons_self ha
        by_cases hlt : t < m
        · exact ⟨_, .above ha hm hlt hfs⟩
        · exact ⟨_, .notAbove ha hm (by omega) hfs⟩
      · exact ⟨_, .other ha hfs⟩
  have huniq : ∀ (ss : List Sight) (fs gs : List Finding), Oversized r t ss fs → Oversized r t ss gs →
      fs = gs := by
    intro ss fs gs h
    induction h generalizing gs with
    | nil => intro h'; cases h'; rfl
    | above ha hm hlt _ ih =>
      intro h'
      cases h' with
      | above _ hm' _ h' => rw [measure_unique hm hm', ih _ h']
      | notAbove _ hm' hle _ => have := measure_unique hm hm'; omega
      | other ha' _ => exact absurd ha ha'
    | notAbove ha hm hle _ ih =>
      intro h'
      cases h' with
      | above _ hm' hlt _ => have := measure_unique hm hm'; omega
      | notAbove _ _ _ h' => exact ih _ h'
      | other ha' _ => exact absurd ha ha'
    | other ha _ ih =>
      intro h'
      cases h' with
      | above ha' _ _ _ => exact absurd ha' ha
      | notAbove ha' _ _ _ => exact absurd ha' ha
      | other _ h' => exact ih _ h'
  by_cases hl : InSomeLanguage u
  · obtain ⟨fs, hfs⟩ := hex ((limitDecls r u).flatMap (sights u)) (by
      intro s hs
      obtain ⟨d, hd, hs⟩ := List.mem_flatMap.1 hs
      exact hm d hd s hs)
    refine ⟨fs, .inl ⟨hl, hfs⟩, ?_⟩
    rintro gs (⟨-, h⟩ | ⟨h, -⟩)
    · exact huniq _ _ _ h hfs
    · exact absurd hl h
  · refine ⟨[], .inr ⟨hl, rfl⟩, ?_⟩
    rintro gs (⟨h, -⟩ | ⟨-, h⟩)
    · exact absurd h hl
    · exact h

theorem metricId_inj {r r' : MetricRule} (h : metricId r = metricId r') : r = r' := by
  revert h
  cases r <;> cases r' <;> decide +kernel

/-- What is set for the limit of a rule, by the configuration files and the command line, is its
limit, if it stands for an `int`. -/
theorem C106_settings (e : Env) (cli : CommandLine) (st : OptionState)
    (hlen : ∀ s ∈ cli.ruleConfiguration, s.length < 2147483648) (h : processOptions e cli = .ok st) :
    ∃ rc, List.Forall₂ (fun s (kv : Str × Str) => IsSplit s kv.1 kv.2) cli.ruleConfiguration rc ∧
      ∀ r t, LimitIs st.configurations r t ↔ LimitSet e rc r t := by
  obtain ⟨rc, hrc, hs⟩ := C14_rule_configuration_partial e cli st hlen h
  refine ⟨rc, hrc, fun r t => ?_⟩
  have hlook : ∀ key, cfgLookup st.configurations key = configured key (settings e rc) := by
    intro key
    have h1 := hs key "a".toList
    have h2 := hs key "b".toList
    rw [stringForKey_eq] at h1 h2
    have e1 := (Prod.mk.inj (Outcome.ok.inj h1)).1
    have e2 := (Prod.mk.inj (Outcome.ok.inj h2)).1
    generalize hne : "a".toList = a at e1
    generalize hne' : "b".toList = b at e2
    have hab : a ≠ b := by rw [← hne, ← hne']; decide
    cases hx : cfgLookup st.configurations key <;> cases hy : configured key (settings e rc) <;>
      rw [hx, hy] at e1 e2 <;> simp only [Option.getD] at e1 e2
    · exact absurd (e1.trans e2.symm) hab
    · exact absurd (e1.symm.trans e2) hab
    · rw [e1]
  unfold LimitIs LimitSet
  rw [intForKey_eq, hlook]
  cases configured (limitKey r).toList (settings e rc) with
  | none =>
    simp only
    constructor
    · rintro ⟨cfg', h⟩
      exact (Prod.mk.inj (Outcome.ok.inj h)).1.symm
    · rintro rfl
      exact ⟨_, rfl⟩
  | some v =>
    simp only
    obtain ⟨z, h1, h2, h3, h4⟩ := C08_every_text v
    constructor
    · rintro ⟨cfg', h⟩
      by_cases hz : IsInt32 z
      · rw [h3 hz] at h
        have := (Prod.mk.inj (Outcome.ok.inj h)).1
        subst this
        exact ⟨h1, hz⟩
      · rw [h4 hz] at h
        cases h
    · rintro ⟨hb, hi⟩
      have := h2 _ hb
      subst this
      rw [h3 hi]
      exact ⟨_, rfl⟩

open Classical in
/-- What the rule with a number finds. -/
noncomputable def foundBy (found : MetricRule → TreeUnit → List Finding) (rule : RuleId)
    (u : TreeUnit) : List Finding :=
  if h : ∃ r, metricId r = rule then found h.choose u else []

theorem foundBy_eq (found : MetricRule → TreeUnit → List Finding) (r : MetricRule) (u : TreeUnit) :
    foundBy found (metricId r) u = found r u := by
  have h : ∃ r', metricId r' = metricId r := ⟨r, rfl⟩
  unfold foundBy
  rw [dif_pos h, metricId_inj h.choose_spec]

/-- The lines of a unit. -/
noncomputable def someLines (u : TreeUnit) : List Str := (C31_lines_unique u.source.buffer).choose

theorem limits_rulesRun {m : Machine TreeUnit (RuleId → RuleMemory Int) κ} {st : OptionState}
    {apple : Bool} {body : RuleId → RuleBody Int} {rules : List MetricRule}
    {sights : TreeUnit → Nat → List Sight} {limits : MetricRule → Int}
    {found : MetricRule → TreeUnit → List Finding} {rs bugs : List (CompileResult TreeUnit)}
    (h : LimitsRun m st apple body rules sights limits found rs bugs) :
    RulesRun m st apple body 0 someLines (foundBy found) rs bugs where
  takeoff := h.takeoff
  fresh := h.fresh
  steady := by
    intro rule hrule v hv u hu
    rw [h.running] at hrule
    obtain ⟨r, hr, rfl⟩ := List.mem_map.1 hrule
    rw [h.bodies r hr] at hv
    cases hv
    rw [foundBy_eq]
    exact C106_unit _ _ _ _ (h.limit r hr) (h.positive r hr) u _ (h.findings r hr u hu)
  limit := by
    intro rule hrule hb
    rw [h.running] at hrule
    obtain ⟨r, hr, rfl⟩ := List.mem_map.1 hrule
    rw [h.bodies r hr] at hb
    cases hb
  compiled := h.compiled
  lines := fun u _ => (C31_lines_unique u.source.buffer).choose_spec.1
  named := h.named
  agree := h.agree

theorem limits_reports {m : Machine TreeUnit (RuleId → RuleMemory Int) κ} {st : OptionState}
    {apple : Bool} {body : RuleId → RuleBody Int} {rules : List MetricRule}
    {sights : TreeUnit → Nat → List Sight} {limits : MetricRule → Int}
    {found : MetricRule → TreeUnit → List Finding} {rs bugs : List (CompileResult TreeUnit)}
    (h : LimitsRun m st apple body rules sights limits found rs bugs) (us : List TreeUnit) :
    allReports apple body 0 someLines (foundBy found) (runningRules m st) us =
      limitReports apple rules found us := by
  unfold allReports limitReports
  rw [h.running]
  refine List.flatMap_congr fun u _ => ?_
  rw [List.flatMap_map]
  refine List.flatMap_congr fun r hr => ?_
  unfold reportsOf
  rw [h.bodies r hr]
  simp only
  rw [foundBy_eq, show (metricVisitor st.configurations sights r).attributeName = (limitRuleNames r).1
    from (C106_classes r).2.1]

/-- What is reported in a run of rules with limits. -/
theorem C106_reports (m : Machine TreeUnit (RuleId → RuleMemory Int) κ) (st : OptionState)
    (apple : Bool) (body : RuleId → RuleBody Int) (rules : List MetricRule)
    (sights : TreeUnit → Nat → List Sight) (limits : MetricRule → Int)
    (found : MetricRule → TreeUnit → List Finding) (rs bugs : List (CompileResult TreeUnit))
    (h : LimitsRun m st apple body rules sights limits found rs bugs) :
    ∃ c, analysis m st = .ok c ∧
      rawAll c .violations = limitReports apple rules found (rs.filterMap unitOf) := by
  obtain ⟨c, hc, hv, -⟩ := C104_findings m st apple body 0 someLines (foundBy found) rs bugs
    (limits_rulesRun h)
  exact ⟨c, hc, by rw [hv, limits_reports h]⟩

open Classical in
/-- The exit code of such a run. -/
theorem C106_exit [DecidableEq κ] (m : Machine TreeUnit (RuleId → RuleMemory Int) κ)
    (cli : CommandLine) (st : OptionState) (apple : Bool) (body : RuleId → RuleBody Int)
    (rules : List MetricRule) (sights : TreeUnit → Nat → List Sight) (limits : MetricRule → Int)
    (found : MetricRule → TreeUnit → List Finding) (rs bugs : List (CompileResult TreeUnit))
    (hst : processOptions m.env cli = .ok st)
    (h : LimitsRun m st apple body rules sights limits found rs bugs) (hload : RulesLoad m st)
    (reporter : Str)
    (hrep : loadReporter m.listing m.reporterLibrary st.argReportType.value (reporterDir m.env) =
      .ok reporter)
    (hreport : ∀ a, Reported m st reporter a = .ok ()) :
    mainProgram m (some cli) = .ok
      (if ∃ r ∈ rs, ∃ d ∈ r.diagnostics, d.level = .error ∨ d.level = .fatal then .COMPILATION_ERRORS
        else if WithinLimits m st
          (if st.argDuplications.value then limitReports apple rules found (rs.filterMap unitOf)
          else firsts (limitReports apple rules found (rs.filterMap unitOf)))
          then .SUCCESS else .VIOLATIONS_EXCEED_THRESHOLD) := by
  have := C104_exit m cli st apple body 0 someLines (foundBy found) rs bugs hst (limits_rulesRun h) hload
    reporter hrep hreport
  rwa [limits_reports h] at this

/-! ## Higher limits -/

theorem oversized_nodes {r : MetricRule} {t t' : Int} (hle : t ≤ t') {ss : List Sight}
    {fs gs : List Finding} (h : Oversized r t ss fs) (h' : Oversized r t' ss gs) :
    (gs.map Finding.node).Sublist (fs.map Finding.node) := by
  induction h generalizing gs with
  | nil => cases h'; exact .slnil
  | above ha hm hlt _ ih =>
    cases h' with
    | above _ _ _ h' => exact (ih h').cons_cons _
    | notAbove _ _ _ h' => exact (ih h').cons _
    | other ha' _ => exact absurd ha ha'
  | notAbove ha hm hle' _ ih =>
    cases h' with
    | above _ hm' hlt _ => have := measure_unique hm hm'; omega
    | notAbove _ _ _ h' => exact ih h'
    | other ha' _ => exact absurd ha ha'
  | other ha _ ih =>
    cases h' with
    | above ha' _ _ _ => exact absurd ha' ha
    | notAbove ha' _ _ _ => exact absurd ha' ha
    | other _ h' => exact ih h'

theorem findings_nodes {sights : TreeUnit → Nat → List Sight} {r : MetricRule} {t t' : Int}
    (hle : t ≤ t') {u : TreeUnit} {fs gs : List Finding} (h : LimitFindings sights r t u fs)
    (h' : LimitFindings sights r t' u gs) :
    (gs.map Finding.node).Sublist (fs.map Finding.node) := by
  rcases h with ⟨hc, h⟩ | ⟨hc, rfl⟩
  · rcases h' with ⟨-, h'⟩ | ⟨hc', -⟩
    · exact oversized_nodes hle h h'
    · exact absurd hc hc'
  · rcases h' with ⟨hc', -⟩ | ⟨-, rfl⟩
    · exact absurd hc' hc
    · exact List.Sublist.refl _

/-- Where and of which rule something is reported. -/
def placeOf (v : Violation) : Option RuleId × Str × Int × Int × Int × Int :=
  (v.rule, v.path, v.startLine, v.startColumn, v.endLine, v.endColumn)

/-- What is reported of findings, without their messages. -/
theorem report_places (apple : Bool) (name : Str) (rule : RuleId) (u : TreeUnit) (fs : List Finding) :
    (fs.filterMap (reportOf apple name rule u)).map placeOf =
      (fs.map Finding.node).filterMap fun n =>
        (reportOf apple name rule u ⟨n, []⟩).map placeOf := by
  rw [List.map_filterMap, List.filterMap_map]
  refine List.filterMap_congr fun f _ => ?_
  unfold reportOf
  simp only [Function.comp]
  cases f.node with
  | none => rfl
  | some n =>
    simp only
    split <;> rfl

/-- With higher limits nothing is reported that was not before. -/
theorem C106_fewer (apple : Bool) (rules : List MetricRule) (sights : TreeUnit → Nat → List Sight)
    (limits limits' : MetricRule → Int) (found found' : MetricRule → TreeUnit → List Finding)
    (us : List TreeUnit) (hle : ∀ r ∈ rules, limits r ≤ limits' r)
    (h : ∀ r ∈ rules, ∀ u ∈ us, LimitFindings sights r (limits r) u (found r u))
    (h' : ∀ r ∈ rules, ∀ u ∈ us, LimitFindings sights r (limits' r) u (found' r u)) :
    ((limitReports apple rules found' us).map placeOf).Sublist
      ((limitReports apple rules found us).map placeOf) := by
  unfold limitReports
  rw [List.map_flatMap, List.map_flatMap]
  have hunit : ∀ u ∈ us,
      ((rules.flatMap fun r =>
        (found' r u).filterMap (reportOf apple (limitRuleNames r).1 (metricId r) u)).map placeOf).Sublist
      ((rules.flatMap fun r =>
        (found r u).filterMap (reportOf apple (limitRuleNames r).1 (metricId r) u)).map placeOf) := by
    intro u hu
    rw [List.map_flatMap, List.map_flatMap]
    have hr : ∀ r ∈ rules,
        (((found' r u).filterMap (reportOf apple (limitRuleNames r).1 (metricId r) u)).map
          placeOf).Sublist
        (((found r u).filterMap (reportOf apple (limitRuleNames r).1 (metricId r) u)).map placeOf) := by
      intro r hr
      rw [report_places, report_places]
      exact (findings_nodes (hle r hr) (h r hr u hu) (h' r hr u hu)).filterMap _
    clear h h' hle
    induction rules with
    | nil => exact .slnil
    | cons r rules ih =>
      rw [List.flatMap_cons, List.flatMap_cons]
      exact (hr r List.mem_cons_self).append (ih fun r hr' => hr r (List.mem_cons_of_mem _ hr'))
  clear h h'
  induction us with
  | nil => exact .slnil
  | cons u us ih =>
    rw [List.flatMap_cons, List.flatMap_cons]
    exact (hunit u List.mem_cons_self).append (ih fun u hu => hunit u (List.mem_cons_of_mem _ hu))

theorem count_places (priorityOf : RuleId → Int) (p : Int) {vs ws : List Violation}
    (h : (vs.map placeOf).Sublist (ws.map placeOf)) :
    countWithPriority priorityOf p vs ≤ countWithPriority priorityOf p ws := by
  have key : ∀ xs : List Violation, countWithPriority priorityOf p xs =
      ((xs.map placeOf).filter fun q => decide (q.1.map priorityOf = some p)).length := by
    intro xs
    unfold countWithPriority
    rw [List.filter_map, List.length_map]
    rfl
  rw [key, key]
  exact (h.filter _).length_le

/-- Raising limits does not make a run fail: if a run succeeds, it succeeds with higher limits.  Either
there are no duplicates, or they are reported. -/
theorem C106_raise [DecidableEq κ] (m m' : Machine TreeUnit (RuleId → RuleMemory Int) κ)
    (cli cli' : CommandLine) (st st' : OptionState) (apple : Bool) (body body' : RuleId → RuleBody Int)
    (rules : List MetricRule) (sights : TreeUnit → Nat → List Sight) (limits limits' : MetricRule → Int)
    (found found' : MetricRule → TreeUnit → List Finding) (rs bugs bugs' : List (CompileResult TreeUnit))
    (hst : processOptions m.env cli = .ok st) (hst' : processOptions m'.env cli' = .ok st')
    (h : LimitsRun m st apple body rules sights limits found rs bugs)
    (h' : LimitsRun m' st' apple body' rules sights limits' found' rs bugs')
    (hle : ∀ r ∈ rules, limits r ≤ limits' r)
    (hpri : m'.priorityOf = m.priorityOf)
    (h1 : st.argMaxP1.value ≤ st'.argMaxP1.value) (h2 : st.argMaxP2.value ≤ st'.argMaxP2.value)
    (h3 : st.argMaxP3.value ≤ st'.argMaxP3.value)
    (hdup : st.argDuplications.value = true ∨
      (limitReports apple rules found (rs.filterMap unitOf)).Nodup)
    (hload : RulesLoad m st) (hload' : RulesLoad m' st') (reporter reporter' : Str)
    (hrep : loadReporter m.listing m.reporterLibrary st.argReportType.value (reporterDir m.env) =
      .ok reporter)
    (hrep' : loadReporter m'.listing m'.reporterLibrary st'.argReportType.value (reporterDir m'.env) =
      .ok reporter')
    (hreport : ∀ a, Reported m st reporter a = .ok ())
    (hreport' : ∀ a, Reported m' st' reporter' a = .ok ())
    (hsucc : mainProgram m (some cli) = .ok .SUCCESS) : mainProgram m' (some cli') = .ok .SUCCESS := by
  have e := C106_exit m cli st apple body rules sights limits found rs bugs hst h hload reporter
    hrep hreport
  have e' := C106_exit m' cli' st' apple body' rules sights limits' found' rs bugs' hst' h' hload'
    reporter' hrep' hreport'
  have hall : (if st.argDuplications.value then limitReports apple rules found (rs.filterMap unitOf)
      else firsts (limitReports apple rules found (rs.filterMap unitOf))) =
      limitReports apple rules found (rs.filterMap unitOf) := by
    split
    · rfl
    · rename_i hd
      exact firsts_of_nodup _ (hdup.resolve_left hd)
  have hany : (if st'.argDuplications.value then limitReports apple rules found' (rs.filterMap unitOf)
      else firsts (limitReports apple rules found' (rs.filterMap unitOf))).Sublist
      (limitReports apple rules found' (rs.filterMap unitOf)) := by
    split
    · exact List.Sublist.refl _
    · exact firsts_sublist _
  rw [hsucc, hall] at e
  have e := Outcome.ok.inj e
  split at e
  · cases e
  · rename_i hbad
    split at e
    · rename_i hlim
      rw [e', if_neg hbad, if_pos]
      have hsub := (hany.map placeOf).trans
        (C106_fewer apple rules sights limits limits' found found' (rs.filterMap unitOf) hle
          h.findings h'.findings)
      obtain ⟨l1, l2, l3⟩ := hlim
      unfold WithinLimits
      rw [hpri]
      have c1 := count_places m.priorityOf 1 hsub
      have c2 := count_places m.priorityOf 2 hsub
      have c3 := count_places m.priorityOf 3 hsub
      refine ⟨?_, ?_, ?_⟩ <;> omega
    · cases e

/-- Why duplicates have to be excluded: what is said of two variables can be the same with a limit and
differ with a higher one, since long names are abbreviated. -/
theorem C106_abbreviated_witness : ∃ a b : Str, ∃ t t' : Int, 0 ≤ t ∧ t < t' ∧ a.length = b.length ∧
    t' < a.length ∧
    message .longName (.variable a) a.length t = message .longName (.variable b) b.length t ∧
    message .longName (.variable a) a.length t' ≠ message .longName (.variable b) b.length t' := by
  refine ⟨"abcdefghijklmn".toList, "abcdxfghijklmn".toList, 1, 2, ?_⟩
  decide +kernel

/-! ## A concrete case -/

/-- A unit with a function of four parameters (declaration and node 1), a function of five (declaration
and node 2) and a variable (node 3), all on lines of their own; there is a marked comment on line 2. -/
def exLimitUnit (path : Str) : TreeUnit :=
  { source := ⟨path, some [some ("//!OCLINT".toList, 2)], [], []⟩
    opts := ⟨false, false, true, false⟩
    decls := [⟨1, true, true, true, false⟩, ⟨2, true, true, true, false⟩, ⟨3, true, true, false, false⟩]
    tree := { kind := fun _ => .decl (.plain []), parents := fun _ => [], acyclic := by simp }
    locOf := fun n => ⟨path, n, 1, n, 5⟩ }

/-- A function without statements. -/
def exFunction (params : Nat) : Construct :=
  .method { parts := [], body := some (.compound []), params := params, startLine := 1, endLine := 1,
            cxxMethod := false, inRecord := false }

/-- What the traversal of its declarations comes by. -/
def exSights (_ : TreeUnit) (d : Nat) : List Sight :=
  if d = 1 then [⟨1, exFunction 4⟩] else if d = 2 then [⟨2, exFunction 5⟩]
  else [⟨3, .variable "abc".toList⟩]

/-- The bodies of the rules. -/
def exLimitBody (cfg : Configurations) (rule : RuleId) : RuleBody Int :=
  if rule = metricId .longName then .visitor (metricVisitor cfg exSights .longName)
  else .visitor (metricVisitor cfg exSights .parameters)

/-- A machine with the rules for parameters and names, and two files. -/
def exLimitMachine (cfg : Configurations) : Machine TreeUnit (RuleId → RuleMemory Int) Nat :=
  { env := { cwd := "/w".toList, home := none, binPath := "/b".toList, fs := fun _ => none,
             yaml := fun _ => ConfigFile.initial }
    listing := fun d => if d = "/b/../lib/oclint/rules".toList then some ["r".toList]
      else some ["t".toList]
    ruleLibrary := fun _ => some [metricId .parameters, metricId .longName]
    reporterLibrary := fun _ => some (some "text".toList)
    toolchain :=
      { absolutePath := id
        chdir := fun _ d => some d
        adjust := fun c f => c ++ [f]
        build := fun _ argv => ⟨[⟨true, "clang".toList, argv⟩], [], []⟩
        compile := fun _ argv => ⟨[], false, some (exLimitUnit (argv.getD 1 [])), true, [true]⟩ }
    mainExecutable := "/b/oclint".toList
    db := fun _ => [⟨"/w".toList, ["cc".toList]⟩]
    sources := ["a.c".toList, "b.c".toList]
    ruleIdentifier := shippedIdentifier
    priorityOf := shippedPriority
    takeoff := rulesTakeoff false cfg (exLimitBody cfg)
    initialRules := fun _ => ⟨SuppressCache.empty, 0⟩
    hash := fun _ => 0
    canOpen := fun _ => false
    report := fun _ _ => .ok () }

/-- At most three parameters and two letters: in each of the two files one function (the comment
silences the other one) and one variable are reported, of priority 3. -/
example : mainProgram
    (exLimitMachine (some [("TOO_MANY_PARAMETERS".toList, "3".toList),
      ("LONG_VARIABLE_NAME".toList, "2".toList)]))
    (some { ruleConfiguration := ["TOO_MANY_PARAMETERS=3".toList, "LONG_VARIABLE_NAME=2".toList],
            maxP3 := some 3 }) = .ok .VIOLATIONS_EXCEED_THRESHOLD := by decide +kernel
example : mainProgram
    (exLimitMachine (some [("TOO_MANY_PARAMETERS".toList, "3".toList),
      ("LONG_VARIABLE_NAME".toList, "2".toList)]))
    (some { ruleConfiguration := ["TOO_MANY_PARAMETERS=3".toList, "LONG_VARIABLE_NAME=2".toList],
            maxP3 := some 4 }) = .ok .SUCCESS := by decide +kernel
/-- With a limit of four parameters the function with four is not reported. -/
example : mainProgram
    (exLimitMachine (some [("TOO_MANY_PARAMETERS".toList, "4".toList),
      ("LONG_VARIABLE_NAME".toList, "2".toList)]))
    (some { ruleConfiguration := ["TOO_MANY_PARAMETERS=4".toList, "LONG_VARIABLE_NAME=2".toList],
            maxP3 := some 2 }) = .ok .SUCCESS := by decide +kernel
example : mainProgram
    (exLimitMachine (some [("TOO_MANY_PARAMETERS".toList, "4".toList),
      ("LONG_VARIABLE_NAME".toList, "2".toList)]))
    (some { ruleConfiguration := ["TOO_MANY_PARAMETERS=4".toList, "LONG_VARIABLE_NAME=2".toList],
            maxP3 := some 1 }) = .ok .VIOLATIONS_EXCEED_THRESHOLD := by decide +kernel

/-- What the rules are supposed to find in these units. -/
def exLimitFound (r : MetricRule) (_ : TreeUnit) : List Finding :=
  if r = .parameters then
    [⟨some 1, "Method with 4 parameters exceeds limit of 3".toList⟩,
      ⟨some 2, "Method with 5 parameters exceeds limit of 3".toList⟩]
  else [⟨some 3, "Length of variable name `abc` is 3, which is longer than the threshold of 2".toList⟩]

theorem exLimit_found (path : Str) (r : MetricRule) (hr : r = .parameters ∨ r = .longName) :
    LimitFindings exSights r (if r = .parameters then 3 else 2) (exLimitUnit path)
      (exLimitFound r (exLimitUnit path)) := by
  have hdecls : limitDecls r (exLimitUnit path) = [1, 2, 3] := by
    unfold limitDecls exLimitUnit InMain
    simp
  have hs : (limitDecls r (exLimitUnit path)).flatMap (exSights (exLimitUnit path)) =
      [⟨1, exFunction 4⟩, ⟨2, exFunction 5⟩, ⟨3, .variable "abc".toList⟩] := by
    rw [hdecls]
    rfl
  refine .inl ⟨.inr ⟨.c, .c rfl rfl rfl⟩, ?_⟩
  rw [hs]
  rcases hr with rfl | rfl
  · have h4 : message .parameters (exFunction 4) 4 3 =
        "Method with 4 parameters exceeds limit of 3".toList := by decide +kernel
    have h5 : message .parameters (exFunction 5) 5 3 =
        "Method with 5 parameters exceeds limit of 3".toList := by decide +kernel
    unfold exLimitFound
    rw [if_pos rfl, if_pos rfl, ← h4, ← h5]
    refine .above (s := ⟨1, exFunction 4⟩) (m := 4) (.parameters _ (by simp))
      (.parameters (d := ⟨[], some (.compound []), 4, 1, 1, false, false⟩) (by simp)) (by omega)
      (.above (s := ⟨2, exFunction 5⟩) (m := 5) (.parameters _ (by simp))
        (.parameters (d := ⟨[], some (.compound []), 5, 1, 1, false, false⟩) (by simp)) (by omega)
        (.other (fun h => by cases h) .nil))
  · have h3 : message .longName (.variable "abc".toList) 3 2 =
        "Length of variable name `abc` is 3, which is longer than the threshold of 2".toList := by
      decide +kernel
    unfold exLimitFound
    rw [if_neg (by decide), if_neg (by decide), ← h3]
    exact .other (fun h => by cases h) (.other (fun h => by cases h)
      (.above (s := ⟨3, .variable "abc".toList⟩) (m := 3) (.longName _)
        (.longName (n := "abc".toList) (by decide +kernel)) (by omega) .nil))

/-- The theorems speak of that machine. -/
example (st : OptionState)
    (hcfg : st.configurations = some [("TOO_MANY_PARAMETERS".toList, "3".toList),
      ("LONG_VARIABLE_NAME".toList, "2".toList)])
    (hchecker : st.argClangChecker.value = false)
    (hrules : runningRules (exLimitMachine st.configurations) st =
      [metricId .parameters, metricId .longName]) :
    LimitsRun (exLimitMachine st.configurations) st false (exLimitBody st.configurations)
      [.parameters, .longName] exSights (fun r => if r = .parameters then 3 else 2) exLimitFound
      [⟨[], false, some (exLimitUnit "a.c".toList), true, [true]⟩,
        ⟨[], false, some (exLimitUnit "b.c".toList), true, [true]⟩] [] := by
  have hunits : ([⟨[], false, some (exLimitUnit "a.c".toList), true, [true]⟩,
        ⟨[], false, some (exLimitUnit "b.c".toList), true, [true]⟩] :
        List (CompileResult TreeUnit)).filterMap unitOf =
      [exLimitUnit "a.c".toList, exLimitUnit "b.c".toList] := rfl
  have hrepl : Replaced "\\ ".toList " ".toList "/w".toList "/w".toList := by
    obtain ⟨t, ht, hr, -⟩ := C23_replacement "/w".toList "\\ ".toList " ".toList (by decide)
    have : stringReplace "/w".toList "\\ ".toList " ".toList = some "/w".toList := by decide +kernel
    rw [this] at ht
    cases ht
    exact hr
  have hjobs : jobsOf (exLimitMachine st.configurations).toolchain
      (exLimitMachine st.configurations).db (exLimitMachine st.configurations).sources =
      [("a.c".toList, ⟨"/w".toList, ["cc".toList]⟩), ("b.c".toList, ⟨"/w".toList, ["cc".toList]⟩)] := rfl
  have hcompiles : ∀ f : Str, f ≠ "-gmodules".toList →
      Compiles (exLimitMachine st.configurations).toolchain
        (exLimitMachine st.configurations).mainExecutable false "/w".toList
        (f, ⟨"/w".toList, ["cc".toList]⟩) ⟨[], false, some (exLimitUnit f), true, [true]⟩ "/w".toList := by
    intro f hf
    have hcall := ClangCall.normal (exe := (exLimitMachine st.configurations).mainExecutable) "cc".toList [f]
    have hfilter : (((exLimitMachine st.configurations).mainExecutable :: [f]).filter
        fun a => decide (a ≠ "-gmodules".toList)) = [(exLimitMachine st.configurations).mainExecutable, f] := by
      have hexe : decide ("/b/oclint".toList ≠ "-gmodules".toList) = true := by decide +kernel
      refine (List.filter_cons_of_pos (a := "/b/oclint".toList)
        (p := fun a : Str => decide (a ≠ "-gmodules".toList)) hexe).trans ?_
      rw [List.filter_cons_of_pos (p := fun a : Str => decide (a ≠ "-gmodules".toList))
          (decide_eq_true hf), List.filter_nil]
      rfl
    rw [hfilter] at hcall
    exact Compiles.mk (tc := (exLimitMachine st.configurations).toolchain) "/w".toList "/w".toList _
      ([(exLimitMachine st.configurations).mainExecutable, f] ++ ["-D__OCLINT__".toList]) hrepl rfl hcall
      ⟨_, [], rfl, .inl rfl, rfl, rfl, rfl⟩
  have hunit : ∀ u ∈ [exLimitUnit "a.c".toList, exLimitUnit "b.c".toList],
      ∃ path, path ≠ [] ∧ u = exLimitUnit path := by
    intro u hu
    rcases List.mem_cons.1 hu with rfl | hu
    · exact ⟨_, by decide +kernel, rfl⟩
    · rw [List.mem_singleton.1 hu]
      exact ⟨_, by decide +kernel, rfl⟩
  have htwo : ∀ r ∈ [MetricRule.parameters, .longName], r = .parameters ∨ r = .longName := by
    intro r hr
    rcases List.mem_cons.1 hr with rfl | hr
    · exact .inl rfl
    · exact .inr (List.mem_singleton.1 hr)
  constructor
  · rfl
  · intro r hr
    rcases htwo r hr with rfl | rfl
    · exact if_neg (by decide +kernel)
    · exact if_pos rfl
  · exact hrules
  · intro r
    rfl
  · intro r hr
    rw [hcfg]
    rcases htwo r hr with rfl | rfl
    · exact ⟨_, rfl⟩
    · exact ⟨_, rfl⟩
  · intro r hr _
    rcases htwo r hr with rfl | rfl <;> decide
  · intro r hr u hu
    rw [hunits] at hu
    obtain ⟨path, -, rfl⟩ := hunit u hu
    exact exLimit_found path r (htwo r hr)
  · refine ⟨"/w".toList, ?_, .inl ⟨hchecker, rfl⟩⟩
    rw [hjobs]
    exact .cons (hcompiles _ (by decide +kernel)) (.cons (hcompiles _ (by decide +kernel)) (.nil _))
  · intro u hu
    rw [hunits] at hu
    obtain ⟨path, hp, rfl⟩ := hunit u hu
    exact hp
  · intro u hu v hv _
    rw [hunits] at hu hv
    obtain ⟨path, -, rfl⟩ := hunit u hu
    obtain ⟨path', -, rfl⟩ := hunit v hv
    exact ⟨rfl, rfl⟩

end Oclint
