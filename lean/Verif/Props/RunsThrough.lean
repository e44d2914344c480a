import Verif.Props.MetricRun

/-!
# C104, C106: a run that gets as far as its report has looked at everything
-/

namespace Oclint
open Spec

variable {τ κ : Type}

theorem ok_of_bind {α β : Type} {x : Outcome α} {f : α → Outcome β} {b : β} (h : (x >>= f) = .ok b) :
    ∃ a, x = .ok a ∧ f a = .ok b := by
  cases x with
  | ok a => exact ⟨a, rfl, h⟩
  | throws w => cases h
  | ub => cases h

/-- Declarations that were traversed. -/
theorem visits_of_steps (apple : Bool) (r : VisitorRule τ) (rule : RuleId) (u : TreeUnit) (ds : List Nat)
    (st st' : (ViolationSet × SuppressCache) × τ)
    (h : (ds.map VisitEvent.traverse).foldlM (visitorStep apple r rule u) st = .ok st') :
    ∃ fs, Visits r u st.2 ds fs st'.2 := by
  induction ds generalizing st with
  | nil => cases h; exact ⟨[], .nil _⟩
  | cons d ds ih =>
    rw [List.map_cons, List.foldlM_cons] at h
    obtain ⟨mid, h1, h2⟩ := ok_of_bind h
    obtain ⟨x, h3, h4⟩ := ok_of_bind (x := r.traverse u st.2 d) h1
    cases h4
    obtain ⟨fs, hfs⟩ := ih _ h2
    exact ⟨_, .cons h3 hfs⟩

/-- A rule that was let loose on a unit without an exception has looked at it. -/
theorem findsIn_of_takeoff (apple : Bool) (r : VisitorRule τ) (rule : RuleId) (u : TreeUnit)
    (mem : RuleMemory τ) (x : RuleMemory τ × List Report)
    (h : visitorTakeoff apple r rule mem u = .ok x) : ∃ fs, FindsIn r u mem.members fs x.1.members := by
  obtain ⟨y, h1, h2⟩ := ok_of_bind h
  cases h2
  by_cases hc : Concerned r u
  · rw [(visitorApply_eq r u).1 hc, List.cons_append, List.foldlM_cons] at h1
    obtain ⟨y1, h3, h4⟩ := ok_of_bind h1
    obtain ⟨t0, h5, h6⟩ := ok_of_bind (x := r.setUp u mem.members) h3
    cases h6
    rw [List.foldlM_append] at h4
    obtain ⟨y2, h7, h8⟩ := ok_of_bind h4
    obtain ⟨fs, hfs⟩ := visits_of_steps apple r rule u _ _ _ h7
    rw [List.foldlM_cons] at h8
    obtain ⟨y3, h9, h10⟩ := ok_of_bind h8
    obtain ⟨z, h11, h12⟩ := ok_of_bind (x := r.tearDown u y2.2) h9
    cases h12
    cases h10
    exact ⟨_, .looked hc h5 hfs h11⟩
  · rw [(visitorApply_eq r u).2 hc] at h1
    cases h1
    exact ⟨[], .skipped _ hc⟩

theorem checked_each {U σ : Type} {a : Analyzer U σ} {u : U} {s s' : σ} {rules : List RuleId}
    {found : List Violation} (h : Checked a u s rules found s') :
    ∀ rule ∈ rules, ∃ mid x, a.takeoff rule mid u = .ok x := by
  induction h with
  | nil => intro _ h; cases h
  | cons h1 _ ih =>
    intro rule hr
    rcases List.mem_cons.1 hr with rfl | hr
    · exact ⟨_, _, h1⟩
    · exact ih rule hr

theorem checkedAll_each {U σ : Type} {a : Analyzer U σ} {us : List U} {s s' : σ}
    {found : List (List Violation)} (h : CheckedAll a s us found s') :
    ∀ u ∈ us, ∀ rule ∈ a.filteredRules, ∃ mid x, a.takeoff rule mid u = .ok x := by
  induction h with
  | nil => intro _ h; cases h
  | cons h1 _ ih =>
    intro u hu
    rcases List.mem_cons.1 hu with rfl | hu
    · exact checked_each h1
    · exact ih u hu

/-- If the analysis ends without an exception, every running rule has looked at every unit that compiles
without errors: it was set up, it went through all declarations it is to be shown, and it finished; and
the limit of the long line rule is a number, if the unit has a line. -/
theorem C104_nothing_left_out (m : Machine TreeUnit (RuleId → RuleMemory τ) κ) (st : OptionState)
    (apple : Bool) (body : RuleId → RuleBody τ)
    (ht : m.takeoff = rulesTakeoff apple st.configurations body) (c : ResultCollector)
    (h : analysis m st = .ok c) :
    ∃ rs cwd, CompileAll m.toolchain m.mainExecutable false m.env.cwd
        (jobsOf m.toolchain m.db m.sources) rs cwd ∧
      ∀ u ∈ rs.filterMap unitOf, ∀ rule ∈ runningRules m st,
        (∀ r, body rule = .visitor r → ∃ t fs t', FindsIn r u t fs t') ∧
        (body rule = .longLine → ∀ line lines, IsLines u.source.buffer (line :: lines) → ∃ limit cfg,
          st.configurations.intForKey "LONG_LINE".toList 100 = .ok (limit, cfg)) := by
  obtain ⟨ds, hds⟩ : ∃ ds, driverRun m.toolchain m.mainExecutable st.argGlobalAnalysis.value
      st.argClangChecker.value ⟨runningRules m st, m.takeoff⟩
      ⟨m.env.cwd, ResultCollector.empty, m.initialRules⟩ m.db m.sources = .ok ds := by
    unfold analysis at h
    split at h
    · exact ⟨_, ‹_›⟩
    · cases h
    · cases h
  obtain ⟨rs, bugs, hcomp⟩ := (C92_collects _ _ _ _ _ _ _ _ _).1 hds
  obtain ⟨cwd, found, s, h1, h2⟩ : ∃ cwd found s, CompileAll m.toolchain m.mainExecutable false m.env.cwd
      (jobsOf m.toolchain m.db m.sources) rs cwd ∧
      CheckedAll ⟨runningRules m st, m.takeoff⟩ m.initialRules (rs.filterMap unitOf) found s := by
    cases hcomp with
    | plain _ h1 h2 => exact ⟨_, _, _, h1, h2⟩
    | checked _ h1 h2 _ => exact ⟨_, _, _, h1, h2⟩
  refine ⟨rs, cwd, h1, fun u hu rule hr => ?_⟩
  obtain ⟨mid, x, hx⟩ := checkedAll_each h2 u hu rule hr
  simp only [ht] at hx
  obtain ⟨y, hy, -⟩ := ok_of_bind (x := bodyTakeoff apple st.configurations (body rule) rule (mid rule) u) hx
  constructor
  · intro r hb
    rw [hb] at hy
    obtain ⟨fs, hfs⟩ := findsIn_of_takeoff apple r rule u (mid rule) y hy
    exact ⟨_, fs, _, hfs⟩
  · intro hb line lines hl
    rw [hb] at hy
    obtain ⟨z, hz, -⟩ := ok_of_bind (x := longLineTakeoff apple st.configurations rule _ u.source) hy
    obtain ⟨v, hv, -⟩ := ok_of_bind hz
    rw [C31_apply _ _ _ _ hl, List.zipIdx_cons, List.foldlM_cons] at hv
    obtain ⟨_, h3, -⟩ := ok_of_bind hv
    obtain ⟨⟨limit, cfg⟩, h4, -⟩ := ok_of_bind (x := st.configurations.intForKey "LONG_LINE".toList 100) h3
    exact ⟨limit, cfg, h4⟩

/-- What a rule visits it was shown. -/
theorem visits_each {r : VisitorRule τ} {u : TreeUnit} {t t' : τ} {ds : List Nat} {fs : List Finding}
    (h : Visits r u t ds fs t') : ∀ d ∈ ds, ∃ s x, r.traverse u s d = .ok x := by
  induction h with
  | nil => intro _ h; cases h
  | cons h1 _ ih =>
    intro d hd
    rcases List.mem_cons.1 hd with rfl | hd
    · exact ⟨_, _, h1⟩
    · exact ih d hd

theorem visitSights_each {cfg : Configurations} {stored : Int} {r : MetricRule} (ss : List Sight)
    (fs : List Finding) (h : visitSights cfg stored r ss = .ok fs) :
    ∀ s ∈ ss, ∃ o, metricVisit cfg stored r s.construct = .ok o := by
  induction ss generalizing fs with
  | nil => intro _ h; cases h
  | cons s ss ih =>
    obtain ⟨o, h1, h2⟩ := ok_of_bind h
    obtain ⟨gs, h3, -⟩ := ok_of_bind h2
    intro s' hs
    rcases List.mem_cons.1 hs with rfl | hs
    · exact ⟨o, h1⟩
    · exact ih gs h3 s' hs

/-- If the analysis ends without an exception, every rule with a limit could read its limit and visited
every construct of every declaration of every unit that concerns it. -/
theorem C106_nothing_left_out (m : Machine TreeUnit (RuleId → RuleMemory Int) κ) (st : OptionState)
    (apple : Bool) (body : RuleId → RuleBody Int) (sights : TreeUnit → Nat → List Sight)
    (ht : m.takeoff = rulesTakeoff apple st.configurations body) (c : ResultCollector)
    (h : analysis m st = .ok c) (rs : List (CompileResult TreeUnit)) (cwd : Str)
    (hrs : CompileAll m.toolchain m.mainExecutable false m.env.cwd (jobsOf m.toolchain m.db m.sources) rs
      cwd) (r : MetricRule) (hr : metricId r ∈ runningRules m st)
    (hb : body (metricId r) = .visitor (metricVisitor st.configurations sights r))
    (u : TreeUnit) (hu : u ∈ rs.filterMap unitOf) (hl : InSomeLanguage u) :
    ∃ stored, metricSetUp st.configurations r = .ok stored ∧
      ∀ d ∈ limitDecls r u, ∀ s ∈ sights u d, ∃ stored' o,
        metricVisit st.configurations stored' r s.construct = .ok o := by
  obtain ⟨rs', cwd', h1, h2⟩ := C104_nothing_left_out m st apple body ht c h
  obtain ⟨rfl, -⟩ := compileAll_unique hrs h1
  obtain ⟨t, fs, t', hf⟩ := (h2 u hu _ hr).1 _ hb
  cases hf with
  | skipped hc => exact absurd ((metric_concerned _ sights r u).2 hl) hc
  | @looked t0 t1 _ _ _ _ hs hv _ =>
    refine ⟨t0, hs, fun d hd s hsd => ?_⟩
    rw [metric_shown] at hv
    obtain ⟨s0, x, hx⟩ := visits_each hv d hd
    obtain ⟨gs, h3, -⟩ := ok_of_bind (x := visitSights st.configurations s0 r (sights u d)) hx
    obtain ⟨o, ho⟩ := visitSights_each _ _ h3 s hsd
    exact ⟨s0, o, ho⟩

/-- So a name that the long variable name rule cannot shorten (C38) is in no unit of such a run: with a
limit below -8 and a name of fewer than three letters that is more than ten longer than the limit, it does
not end with a report: its exit code is 1, 2 or 3. -/
theorem C106_name_that_ends_the_run [DecidableEq κ] (m : Machine TreeUnit (RuleId → RuleMemory Int) κ)
    (cli : CommandLine) (st : OptionState) (hst : processOptions m.env cli = .ok st)
    (apple : Bool) (body : RuleId → RuleBody Int) (sights : TreeUnit → Nat → List Sight)
    (ht : m.takeoff = rulesTakeoff apple st.configurations body)
    (rs : List (CompileResult TreeUnit)) (cwd : Str)
    (hrs : CompileAll m.toolchain m.mainExecutable false m.env.cwd (jobsOf m.toolchain m.db m.sources) rs
      cwd) (hr : metricId .longName ∈ runningRules m st)
    (hb : body (metricId .longName) = .visitor (metricVisitor st.configurations sights .longName))
    (limit : Int) (hlim : LimitIs st.configurations .longName limit)
    (u : TreeUnit) (hu : u ∈ rs.filterMap unitOf) (hl : InSomeLanguage u) (d : Nat)
    (hd : d ∈ limitDecls .longName u) (node : Nat) (name : Str)
    (hs : ⟨node, .variable name⟩ ∈ sights u d) (hlong : limit + 10 < name.length)
    (hshort : name.length < 3) :
    (∀ c, analysis m st ≠ .ok c) ∧
    ∀ code, mainProgram m (some cli) = .ok code → code.toNat = 1 ∨ code.toNat = 2 ∨ code.toNat = 3 := by
  have hno : ∀ c, analysis m st ≠ .ok c := by
    intro c hc
    obtain ⟨-, -, h⟩ := C106_nothing_left_out m st apple body sights ht c hc rs cwd hrs .longName hr hb u hu
      hl
    obtain ⟨s', o, ho⟩ := h d hd _ hs
    have hn := C38_names st.configurations limit name hlim (by omega)
    rw [if_pos (by omega), if_pos ⟨hlong, hshort⟩] at hn
    have : metricVisit st.configurations s' .longName (.variable name) =
        metricVisit st.configurations 0 .longName (.variable name) := rfl
    simp only at ho
    rw [this, hn] at ho
    cases ho
  refine ⟨hno, fun code hcode => ?_⟩
  have hex := (C17_exit_code m cli st hst code).1 hcode
  generalize code.toNat = n at hex
  cases hex with
  | rules _ => exact .inl rfl
  | reporter => exact .inr (.inl rfl)
  | analysis => exact .inr (.inr rfl)
  | report _ _ c _ _ hc _ => exact absurd hc (hno c)
  | errors _ c _ _ hc _ _ => exact absurd hc (hno c)
  | threshold _ c _ _ hc _ _ _ => exact absurd hc (hno c)
  | success _ c _ _ hc _ _ _ => exact absurd hc (hno c)

/-! ## A concrete case -/

/-- A declaration that introduces the variable `ab`. -/
def exShortSights (_ : TreeUnit) (d : Nat) : List Sight :=
  if d = 3 then [⟨3, .variable "ab".toList⟩] else []

/-- The machine of C106 with the rule for long names only, on units with the variable `ab`. -/
def exNameMachine (limit : Str) : Machine TreeUnit (RuleId → RuleMemory Int) Nat :=
  { exLimitMachine (some [("LONG_VARIABLE_NAME".toList, limit)]) with
    ruleLibrary := fun _ => some [metricId .longName]
    takeoff := rulesTakeoff false (some [("LONG_VARIABLE_NAME".toList, limit)]) fun _ =>
      .visitor (metricVisitor (some [("LONG_VARIABLE_NAME".toList, limit)]) exShortSights .longName) }

/-- With a limit of -9 the run ends with exit code 3; with one of -8 there are reports. -/
example : mainProgram (exNameMachine "-9".toList)
    (some { ruleConfiguration := ["LONG_VARIABLE_NAME=-9".toList] }) =
      .ok .ERROR_WHILE_PROCESSING := by decide +kernel
example : mainProgram (exNameMachine "-8".toList)
    (some { ruleConfiguration := ["LONG_VARIABLE_NAME=-8".toList], maxP3 := some 1 }) =
      .ok .VIOLATIONS_EXCEED_THRESHOLD := by decide +kernel

end Oclint
