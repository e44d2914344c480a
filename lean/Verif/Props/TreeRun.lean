import Verif.Spec.TreeRun
import Verif.Props.LongLineRun

/-!
# C104: from what rules find to the exit code
-/

namespace Oclint
open Spec

variable {τ κ : Type}

/-- Findings reported one after the other. -/
theorem addFindings_eq (apple : Bool) (r : VisitorRule τ) (rule : RuleId) (u : TreeUnit)
    (fs : List Finding) : ∀ (set : ViolationSet) (qs : List Query),
      (∀ q ∈ qs, q.unit.mainPath = u.source.mainPath → q.unit.comments = u.source.comments) →
      ∃ qs', (∀ q ∈ qs', q.unit = u.source ∧ q.rule = none) ∧
        addFindings apple r rule u (set, cacheAfter apple qs) fs =
          (set ++ fs.filterMap (reportOf apple r.attributeName rule u),
            cacheAfter apple (qs ++ qs')) := by
  induction fs with
  | nil =>
    intro set qs _
    exact ⟨[], by simp, by simp [addFindings]⟩
  | cons f fs ih =>
    intro set qs hqs
    have hunfold : ∀ st, addFindings apple r rule u st (f :: fs) =
        addFindings apple r rule u (addViolationNode apple u.tree u.locOf r.attributeName st.2 u.source
          st.1 f.node rule f.message) fs := fun st => rfl
    rw [hunfold]
    cases hn : f.node with
    | none =>
      obtain ⟨qs', h1, h2⟩ := ih set qs hqs
      refine ⟨qs', h1, ?_⟩
      rw [(C27_recorded apple u.tree u.locOf r.attributeName (cacheAfter apple qs) u.source set 0 rule
        f.message).2.2, h2, List.filterMap_cons_none]
      unfold reportOf
      rw [hn]
    | some n =>
      obtain ⟨hsil, hnot, -⟩ := C27_recorded apple u.tree u.locOf r.attributeName (cacheAfter apple qs)
        u.source set n rule f.message
      by_cases hs : NodeSilenced u.tree r.attributeName n
      · obtain ⟨qs', h1, h2⟩ := ih set qs hqs
        refine ⟨qs', h1, ?_⟩
        rw [hsil hs, h2, List.filterMap_cons_none]
        unfold reportOf
        rw [hn]
        exact if_pos (Or.inl hs)
      · rw [hnot hs]
        obtain ⟨hadd, hskip, hc⟩ := C26_recorded apple qs u.source set (u.locOf n) rule f.message hqs
        have hnext : ∀ q ∈ qs ++ [⟨u.source, none, (u.locOf n).startLine⟩],
            q.unit.mainPath = u.source.mainPath → q.unit.comments = u.source.comments := by
          intro q hq hp
          rcases List.mem_append.1 hq with h | h
          · exact hqs q h hp
          · rw [List.mem_singleton.1 h]
        have hmem : ∀ qs' : List Query, (∀ q ∈ qs', q.unit = u.source ∧ q.rule = none) →
            ∀ q ∈ (⟨u.source, none, (u.locOf n).startLine⟩ :: qs' : List Query),
              q.unit = u.source ∧ q.rule = none := by
          intro qs' h q hq
          rcases List.mem_cons.1 hq with h' | h'
          · rw [h']
            exact ⟨rfl, rfl⟩
          · exact h q h'
        by_cases hl : LineSuppressed apple u.source (u.locOf n).startLine ∨ (u.locOf n).filename = []
        · obtain ⟨qs', h1, h2⟩ := ih set _ hnext
          refine ⟨_ :: qs', hmem qs' h1, ?_⟩
          rw [show addViolationRange apple (cacheAfter apple qs) u.source set (u.locOf n) rule f.message =
            (set, cacheAfter apple (qs ++ [⟨u.source, none, (u.locOf n).startLine⟩])) from
            Prod.ext (hskip hl) hc, h2, List.filterMap_cons_none, List.append_assoc]
          · rfl
          · unfold reportOf
            rw [hn]
            exact if_pos (Or.inr hl)
        · have hl' : ¬ LineSuppressed apple u.source (u.locOf n).startLine ∧ (u.locOf n).filename ≠ [] :=
            not_or.1 hl
          obtain ⟨qs', h1, h2⟩ := ih (set ++ [⟨some rule, (u.locOf n).filename, (u.locOf n).startLine,
            (u.locOf n).startColumn, (u.locOf n).endLine, (u.locOf n).endColumn, f.message⟩]) _ hnext
          refine ⟨_ :: qs', hmem qs' h1, ?_⟩
          rw [show addViolationRange apple (cacheAfter apple qs) u.source set (u.locOf n) rule f.message =
            (_, cacheAfter apple (qs ++ [⟨u.source, none, (u.locOf n).startLine⟩])) from
            Prod.ext (hadd hl') hc, h2, List.filterMap_cons_some (b := ⟨some rule, (u.locOf n).filename,
              (u.locOf n).startLine, (u.locOf n).startColumn, (u.locOf n).endLine, (u.locOf n).endColumn,
              f.message⟩), List.append_assoc, List.append_assoc]
          · rfl
          · unfold reportOf
            rw [hn]
            exact if_neg (not_or.2 ⟨hs, hl⟩)

/-- The declarations that are shown. -/
theorem visitorApply_eq (r : VisitorRule τ) (u : TreeUnit) :
    (Concerned r u → visitorApply u.opts r.languages r.cudaAttrs u.decls =
      .setUp :: (shownDecls r u).map .traverse ++ [.tearDown]) ∧
    (¬ Concerned r u → visitorApply u.opts r.languages r.cudaAttrs u.decls = []) := by
  classical
  unfold Concerned shownDecls
  by_cases hc : u.opts.cuda = true
  · rw [C30_cuda_unit _ _ _ _ hc]
    constructor
    · intro _
      simp only [hc, true_implies, List.map_map]
      rfl
    · intro h
      exact absurd (Or.inl hc) h
  · have hc' : u.opts.cuda = false := by simpa using hc
    rw [C30_plain_unit _ _ _ _ hc']
    constructor
    · intro h
      rw [if_pos (h.resolve_left hc)]
      simp only [hc', Bool.false_eq_true, false_implies, and_true, List.map_map]
      rfl
    · intro h
      rw [if_neg (fun hh => h (Or.inr hh))]

/-- Declarations one after the other. -/
theorem visits_step (apple : Bool) (r : VisitorRule τ) (rule : RuleId) (u : TreeUnit) {t t' : τ}
    {ds : List Nat} {fs : List Finding} (h : Visits r u t ds fs t') :
    ∀ (set : ViolationSet) (qs : List Query),
      (∀ q ∈ qs, q.unit.mainPath = u.source.mainPath → q.unit.comments = u.source.comments) →
      ∃ qs', (∀ q ∈ qs', q.unit = u.source ∧ q.rule = none) ∧
        (ds.map VisitEvent.traverse).foldlM (visitorStep apple r rule u)
            ((set, cacheAfter apple qs), t) =
          .ok ((set ++ fs.filterMap (reportOf apple r.attributeName rule u),
            cacheAfter apple (qs ++ qs')), t') := by
  induction h with
  | nil t =>
    intro set qs _
    exact ⟨[], by simp, by simp [Outcome.pure_eq]⟩
  | @cons t t1 t2 d ds fs gs hd _ ih =>
    intro set qs hqs
    obtain ⟨q1, h1, h2⟩ := addFindings_eq apple r rule u fs set qs hqs
    obtain ⟨q2, h3, h4⟩ := ih (set ++ fs.filterMap (reportOf apple r.attributeName rule u)) (qs ++ q1)
      (by
        intro q hq hp
        rcases List.mem_append.1 hq with h | h
        · exact hqs q h hp
        · rw [(h1 q h).1])
    refine ⟨q1 ++ q2, ?_, ?_⟩
    · intro q hq
      exact (List.mem_append.1 hq).elim (h1 q) (h3 q)
    · have hstep : visitorStep apple r rule u ((set, cacheAfter apple qs), t) (.traverse d) =
          .ok (addFindings apple r rule u (set, cacheAfter apple qs) fs, t1) := by
        unfold visitorStep
        simp only [hd, Outcome.bind_ok, Outcome.pure_eq]
      rw [List.map_cons, List.foldlM_cons, hstep, Outcome.bind_ok, h2, h4, List.filterMap_append,
        List.append_assoc, List.append_assoc]

/-- A rule of the tree on a unit. -/
theorem visitor_takeoff (apple : Bool) (r : VisitorRule τ) (rule : RuleId) (u : TreeUnit) {t t' : τ}
    {fs : List Finding} (h : FindsIn r u t fs t') (qs : List Query)
    (hqs : ∀ q ∈ qs, q.unit.mainPath = u.source.mainPath → q.unit.comments = u.source.comments) :
    ∃ qs', (∀ q ∈ qs', q.unit = u.source ∧ q.rule = none) ∧
      visitorTakeoff apple r rule ⟨cacheAfter apple qs, t⟩ u =
        .ok (⟨cacheAfter apple (qs ++ qs'), t'⟩,
          (fs.filterMap (reportOf apple r.attributeName rule u)).map asReport) := by
  unfold visitorTakeoff
  cases h with
  | skipped hc =>
    refine ⟨[], by simp, ?_⟩
    rw [(visitorApply_eq r u).2 hc]
    simp [Outcome.pure_eq, Outcome.bind_ok]
  | @looked t0 t1 _ fs gs hc hset hvis htear =>
    obtain ⟨q1, h1, h2⟩ := visits_step apple r rule u hvis [] qs hqs
    have hnext : ∀ q ∈ qs ++ q1, q.unit.mainPath = u.source.mainPath →
        q.unit.comments = u.source.comments := by
      intro q hq hp
      rcases List.mem_append.1 hq with h | h
      · exact hqs q h hp
      · rw [(h1 q h).1]
    obtain ⟨q2, h3, h4⟩ := addFindings_eq apple r rule u gs
      ([] ++ fs.filterMap (reportOf apple r.attributeName rule u)) (qs ++ q1) hnext
    refine ⟨q1 ++ q2, ?_, ?_⟩
    · intro q hq
      exact (List.mem_append.1 hq).elim (h1 q) (h3 q)
    · have hfirst : visitorStep apple r rule u (([], cacheAfter apple qs), t) .setUp =
          .ok (([], cacheAfter apple qs), t0) := by
        unfold visitorStep
        simp only [hset, Outcome.bind_ok, Outcome.pure_eq]
      have hlast : ∀ st, visitorStep apple r rule u (st, t1) .tearDown =
          .ok (addFindings apple r rule u st gs, t') := by
        intro st
        unfold visitorStep
        simp only [htear, Outcome.bind_ok, Outcome.pure_eq]
      rw [(visitorApply_eq r u).1 hc, List.cons_append, List.foldlM_cons, hfirst, Outcome.bind_ok,
        List.foldlM_append, h2, Outcome.bind_ok, List.foldlM_cons, hlast, h4, Outcome.bind_ok,
        List.foldlM_nil, Outcome.pure_eq, Outcome.bind_ok, List.nil_append, List.filterMap_append,
        List.append_assoc]
      rfl

/-- The memory of a rule between units. -/
def KeepsMemory (apple : Bool) (us : List TreeUnit) (body : RuleBody τ) (mem : RuleMemory τ) : Prop :=
  ∃ qs, mem.cache = cacheAfter apple qs ∧
    ∀ q ∈ qs, (∃ v ∈ us, q.unit = v.source) ∧
      (body = .longLine → q.rule = some "long line".toList)

/-- Any rule on a unit. -/
theorem body_takeoff (apple : Bool) (cfg cfg' : Configurations) (limit : Int)
    (linesOf : TreeUnit → List Str) (found : RuleId → TreeUnit → List Finding)
    (body : RuleId → RuleBody τ) (rule : RuleId) (us : List TreeUnit)
    (hagree : ∀ u ∈ us, ∀ v ∈ us, u.source.mainPath = v.source.mainPath →
      u.source.comments = v.source.comments ∧ u.source.topDecls = v.source.topDecls)
    (u : TreeUnit) (hu : u ∈ us) (hlines : IsLines u.source.buffer (linesOf u))
    (hpath : u.source.mainPath ≠ [])
    (hsteady : ∀ r, body rule = .visitor r → Steady r u (found rule u))
    (hcfg : body rule = .longLine → cfg.intForKey "LONG_LINE".toList 100 = .ok (limit, cfg'))
    (mem : RuleMemory τ) (hmem : KeepsMemory apple us (body rule) mem) :
    ∃ mem', KeepsMemory apple us (body rule) mem' ∧ bodyTakeoff apple cfg (body rule) rule mem u =
      .ok (mem', (reportsOf apple limit linesOf found body u rule).map asReport) := by
  obtain ⟨qs, hcache, hqs⟩ := hmem
  have hsame : ∀ q ∈ qs, q.unit.mainPath = u.source.mainPath →
      q.unit.comments = u.source.comments ∧ q.unit.topDecls = u.source.topDecls := by
    intro q hq hp
    obtain ⟨⟨v, hv, e⟩, -⟩ := hqs q hq
    rw [e] at hp ⊢
    exact hagree v hv u hu hp
  obtain ⟨cache, members⟩ := mem
  simp only at hcache
  subst hcache
  unfold bodyTakeoff reportsOf
  generalize hb : body rule = b at *
  cases b with
  | visitor r =>
    obtain ⟨t', hf⟩ := hsteady r rfl members
    obtain ⟨qs', h1, h2⟩ := visitor_takeoff apple r rule u hf qs fun q hq hp => (hsame q hq hp).1
    refine ⟨_, ⟨qs ++ qs', rfl, ?_⟩, h2⟩
    intro q hq
    rcases List.mem_append.1 hq with h | h
    · exact hqs q h
    · exact ⟨⟨u, hu, (h1 q h).1⟩, fun hh => by cases hh⟩
  | longLine =>
    obtain ⟨qs', h1, h2⟩ := longLine_takeoff apple cfg cfg' limit rule u.source (linesOf u) hlines hpath
      (hcfg rfl) qs (fun q hq hp => ⟨(hsame q hq hp).1, (hsame q hq hp).2, (hqs q hq).2 rfl⟩)
    refine ⟨⟨cacheAfter apple (qs ++ qs'), members⟩, ⟨qs ++ qs', rfl, ?_⟩, ?_⟩
    · intro q hq
      rcases List.mem_append.1 hq with h | h
      · exact hqs q h
      · exact ⟨⟨u, hu, (h1 q h).1⟩, fun _ => (h1 q h).2⟩
    · simp only [h2, Outcome.bind_ok, Outcome.pure_eq]

theorem reportsOf_entries (apple : Bool) (limit : Int) (linesOf : TreeUnit → List Str)
    (found : RuleId → TreeUnit → List Finding) (body : RuleId → RuleBody τ) (u : TreeUnit)
    (rule : RuleId) (hpath : u.source.mainPath ≠ []) :
    ∀ v ∈ reportsOf apple limit linesOf found body u rule, v.path ≠ [] ∧ v.rule = some rule := by
  intro v hv
  unfold reportsOf at hv
  split at hv
  · obtain ⟨f, -, hf⟩ := List.mem_filterMap.1 hv
    unfold reportOf at hf
    split at hf
    · cases hf
    · split at hf
      · cases hf
      · rename_i h
        cases hf
        exact ⟨fun hh => h (Or.inr (Or.inr hh)), rfl⟩
  · obtain ⟨_, _, -, -, rfl⟩ := (mem_tooLongLines _ _ _ _ _ _).1 hv
    exact ⟨hpath, rfl⟩

/-- The rules of a run on all units. -/
theorem rules_units (apple : Bool) (cfg : Configurations) (limit : Int)
    (linesOf : TreeUnit → List Str) (found : RuleId → TreeUnit → List Finding)
    (body : RuleId → RuleBody τ) (rules : List RuleId) (all : List TreeUnit)
    (hagree : ∀ u ∈ all, ∀ v ∈ all, u.source.mainPath = v.source.mainPath →
      u.source.comments = v.source.comments ∧ u.source.topDecls = v.source.topDecls)
    (hlines : ∀ u ∈ all, IsLines u.source.buffer (linesOf u))
    (hpath : ∀ u ∈ all, u.source.mainPath ≠ [])
    (hsteady : ∀ rule ∈ rules, ∀ r, body rule = .visitor r → ∀ u ∈ all, Steady r u (found rule u))
    (hcfg : ∀ rule ∈ rules, body rule = .longLine →
      ∃ cfg', cfg.intForKey "LONG_LINE".toList 100 = .ok (limit, cfg'))
    (us : List TreeUnit) (hus : ∀ u ∈ us, u ∈ all) (mems : RuleId → RuleMemory τ)
    (hmems : ∀ r, KeepsMemory apple all (body r) (mems r)) :
    ∃ s, CheckedAll ⟨rules, rulesTakeoff apple cfg body⟩ mems us
      (us.map fun u => rules.flatMap (reportsOf apple limit linesOf found body u)) s := by
  have hone : ∀ u ∈ all, ∀ (rs : List RuleId), (∀ r ∈ rs, r ∈ rules) → ∀ mems : RuleId → RuleMemory τ,
      (∀ r, KeepsMemory apple all (body r) (mems r)) →
      ∃ mems', (∀ r, KeepsMemory apple all (body r) (mems' r)) ∧
        Checked ⟨rules, rulesTakeoff apple cfg body⟩ u mems rs
          (rs.flatMap (reportsOf apple limit linesOf found body u)) mems' := by
    intro u hu rs
    induction rs with
    | nil => exact fun _ mems hm => ⟨mems, hm, .nil mems⟩
    | cons rule rs ih =>
      intro hin mems hm
      have hr := hin rule (by simp)
      obtain ⟨cfg', hcfg'⟩ : ∃ cfg', body rule = .longLine →
          cfg.intForKey "LONG_LINE".toList 100 = .ok (limit, cfg') := by
        by_cases hb : body rule = .longLine
        · obtain ⟨c, hc⟩ := hcfg rule hr hb
          exact ⟨c, fun _ => hc⟩
        · exact ⟨cfg, fun h => absurd h hb⟩
      obtain ⟨mem', h1, h2⟩ := body_takeoff apple cfg cfg' limit linesOf found body rule all hagree u hu
        (hlines u hu) (hpath u hu) (fun r hb => hsteady rule hr r hb u hu) hcfg' (mems rule) (hm rule)
      obtain ⟨mems', h3, h4⟩ := ih (fun r h => hin r (by simp [h]))
        (fun r => if r = rule then mem' else mems r) (by
          intro r
          split
          · rename_i e
            rw [e]
            exact h1
          · exact hm r)
      refine ⟨mems', h3, ?_⟩
      have hk := kept_asReport rule (reportsOf apple limit linesOf found body u rule)
        (reportsOf_entries apple limit linesOf found body u rule (hpath u hu))
      have := Checked.cons (a := ⟨rules, rulesTakeoff apple cfg body⟩) (u := u) (s := mems)
        (rule := rule) (reports := (reportsOf apple limit linesOf found body u rule).map asReport)
        (by
          unfold rulesTakeoff
          simp only [h2, Outcome.bind_ok, Outcome.pure_eq]) h4
      rw [hk] at this
      exact this
  induction us generalizing mems with
  | nil => exact ⟨_, .nil _⟩
  | cons u us ih =>
    obtain ⟨mems', h1, h2⟩ := hone u (hus u (by simp)) rules (fun _ h => h) mems hmems
    obtain ⟨s, hs⟩ := ih (fun v hv => hus v (by simp [hv])) mems' h1
    exact ⟨s, .cons h2 hs⟩

/-- What a run of any number of rules collects: for each unit, in order, what is reported of each
running rule, in order; and what the compiler said. -/
theorem C104_collected (m : Machine TreeUnit (RuleId → RuleMemory τ) κ) (st : OptionState)
    (apple : Bool) (body : RuleId → RuleBody τ) (limit : Int) (linesOf : TreeUnit → List Str)
    (found : RuleId → TreeUnit → List Finding) (rs bugs : List (CompileResult TreeUnit))
    (h : RulesRun m st apple body limit linesOf found rs bugs) :
    analysis m st = .ok (collected ResultCollector.empty rs bugs ((rs.filterMap unitOf).map
      fun u => (runningRules m st).flatMap (reportsOf apple limit linesOf found body u))) := by
  obtain ⟨cwd, hcompiled, hchecker⟩ := h.compiled
  obtain ⟨s, hs⟩ := rules_units apple st.configurations limit linesOf found body (runningRules m st)
    (rs.filterMap unitOf) h.agree h.lines h.named h.steady h.limit (rs.filterMap unitOf)
    (fun _ hu => hu) m.initialRules (fun r => ⟨[], h.fresh r, by simp⟩)
  have hcomp : ∃ ds : DriverState (RuleId → RuleMemory τ), ds.collector =
        collected ResultCollector.empty rs bugs ((rs.filterMap unitOf).map
          fun u => (runningRules m st).flatMap (reportsOf apple limit linesOf found body u)) ∧
      Completes m.toolchain m.mainExecutable st.argClangChecker.value
        ⟨runningRules m st, rulesTakeoff apple st.configurations body⟩
        ⟨m.env.cwd, ResultCollector.empty, m.initialRules⟩ (jobsOf m.toolchain m.db m.sources) rs bugs
        ds := by
    rcases hchecker with ⟨hc, rfl⟩ | ⟨hc, cwd', hb⟩
    · exact ⟨_, rfl, .plain (st := ⟨m.env.cwd, ResultCollector.empty, m.initialRules⟩) hc hcompiled hs⟩
    · exact ⟨_, rfl, .checked (st := ⟨m.env.cwd, ResultCollector.empty, m.initialRules⟩) hc hcompiled hs
        hb⟩
  obtain ⟨ds, hds, hcomp⟩ := hcomp
  have hrun := (C92_collects m.toolchain m.mainExecutable st.argGlobalAnalysis.value
    st.argClangChecker.value _ m.db m.sources _ _).2 ⟨rs, bugs, hcomp⟩
  unfold analysis
  rw [h.takeoff, hrun, ← hds]

/-- The answers about such a run. -/
theorem C104_findings (m : Machine TreeUnit (RuleId → RuleMemory τ) κ) (st : OptionState)
    (apple : Bool) (body : RuleId → RuleBody τ) (limit : Int) (linesOf : TreeUnit → List Str)
    (found : RuleId → TreeUnit → List Finding) (rs bugs : List (CompileResult TreeUnit))
    (h : RulesRun m st apple body limit linesOf found rs bugs) :
    ∃ c, analysis m st = .ok c ∧
      rawAll c .violations =
        allReports apple body limit linesOf found (runningRules m st) (rs.filterMap unitOf) ∧
      rawAll c .checkerBugs = entriesOf (fun _ => true) bugs ∧
      rawAll c .warnings = entriesOf (fun l => l = .warning) rs ∧
      (rawAll c .errors = [] ↔ ∀ r ∈ rs, ∀ d ∈ r.diagnostics, d.level ≠ .error ∧ d.level ≠ .fatal) := by
  refine ⟨_, C104_collected m st apple body limit linesOf found rs bugs h, ?_, ?_, ?_, ?_⟩
  · unfold rawAll collected allReports
    simp only [ResultCollector.empty, List.nil_append]
    rw [collectAll_eq, ← List.flatMap_def]
  · unfold rawAll collected
    simp only [ResultCollector.empty, List.nil_append]
  · unfold rawAll collected
    simp only [ResultCollector.empty, List.nil_append]
  · unfold rawAll collected entriesOf
    simp only [ResultCollector.empty, List.nil_append, List.map_eq_nil_iff, List.filter_eq_nil_iff,
      List.mem_flatMap, decide_eq_true_eq, not_or]
    constructor
    · intro hh r hr d hd
      exact hh d ⟨r, hr, hd⟩
    · rintro hh d ⟨r, hr, hd⟩
      exact hh r hr d hd

open Classical in
/-- The exit code of such a run. -/
theorem C104_exit [DecidableEq κ] (m : Machine TreeUnit (RuleId → RuleMemory τ) κ) (cli : CommandLine)
    (st : OptionState) (apple : Bool) (body : RuleId → RuleBody τ) (limit : Int)
    (linesOf : TreeUnit → List Str) (found : RuleId → TreeUnit → List Finding)
    (rs bugs : List (CompileResult TreeUnit)) (hst : processOptions m.env cli = .ok st)
    (h : RulesRun m st apple body limit linesOf found rs bugs) (hload : RulesLoad m st) (reporter : Str)
    (hrep : loadReporter m.listing m.reporterLibrary st.argReportType.value (reporterDir m.env) =
      .ok reporter)
    (hreport : ∀ a, Reported m st reporter a = .ok ()) :
    mainProgram m (some cli) = .ok
      (if ∃ r ∈ rs, ∃ d ∈ r.diagnostics, d.level = .error ∨ d.level = .fatal then .COMPILATION_ERRORS
        else if WithinLimits m st
          (if st.argDuplications.value then
            allReports apple body limit linesOf found (runningRules m st) (rs.filterMap unitOf)
          else firsts
            (allReports apple body limit linesOf found (runningRules m st) (rs.filterMap unitOf)))
          then .SUCCESS else .VIOLATIONS_EXCEED_THRESHOLD) := by
  obtain ⟨c, hc, hvio, -, -, herr⟩ := C104_findings m st apple body limit linesOf found rs bugs h
  have hans : answers st c .violations = if st.argDuplications.value then
        allReports apple body limit linesOf found (runningRules m st) (rs.filterMap unitOf)
      else firsts
        (allReports apple body limit linesOf found (runningRules m st) (rs.filterMap unitOf)) := by
    unfold answers
    rw [hvio]
  rw [← hans, C17_exit_code m cli st hst]
  by_cases hbad : ∃ r ∈ rs, ∃ d ∈ r.diagnostics, d.level = .error ∨ d.level = .fatal
  · rw [if_pos hbad]
    refine .errors reporter c hload hrep hc (hreport _) fun hh => ?_
    obtain ⟨r, hr, d, hd, hl⟩ := hbad
    obtain ⟨h1, h2⟩ := herr.1 hh r hr d hd
    exact hl.elim h1 h2
  · rw [if_neg hbad]
    have hclean : ∀ r ∈ rs, ∀ d ∈ r.diagnostics, d.level ≠ .error ∧ d.level ≠ .fatal := by
      intro r hr d hd
      exact ⟨fun e => hbad ⟨r, hr, d, hd, Or.inl e⟩, fun e => hbad ⟨r, hr, d, hd, Or.inr e⟩⟩
    split
    · rename_i hl
      exact .success reporter c hload hrep hc (hreport _) (herr.2 hclean) hl
    · rename_i hl
      exact .threshold reporter c hload hrep hc (hreport _) (herr.2 hclean) hl

/-- Those of the reports that are about one rule. -/
theorem C104_by_rule (apple : Bool) (body : RuleId → RuleBody τ) (limit : Int)
    (linesOf : TreeUnit → List Str) (found : RuleId → TreeUnit → List Finding) (rules : List RuleId)
    (us : List TreeUnit) (hpath : ∀ u ∈ us, u.source.mainPath ≠ []) (hnd : rules.Nodup)
    (rule : RuleId) :
    (allReports apple body limit linesOf found rules us).filter (fun v => decide (v.rule = some rule)) =
      if rule ∈ rules then us.flatMap fun u => reportsOf apple limit linesOf found body u rule else [] := by
  have hone : ∀ u ∈ us, (rules.flatMap (reportsOf apple limit linesOf found body u)).filter
      (fun v => decide (v.rule = some rule)) =
      if rule ∈ rules then reportsOf apple limit linesOf found body u rule else [] := by
    intro u hu
    have hent := fun r => reportsOf_entries apple limit linesOf found body u r (hpath u hu)
    clear hpath
    induction rules with
    | nil => simp
    | cons r rules ih =>
      obtain ⟨hr, hnd⟩ := List.nodup_cons.1 hnd
      rw [List.flatMap_cons, List.filter_append, ih hnd]
      by_cases e : r = rule
      · subst e
        rw [if_neg hr, if_pos (by simp), List.append_nil, List.filter_eq_self.2]
        intro v hv
        simpa using (hent r v hv).2
      · rw [List.filter_eq_nil_iff.2, List.nil_append]
        · simp [Ne.symm e]
        · intro v hv
          simpa [(hent r v hv).2] using e
  unfold allReports
  rw [List.filter_flatMap]
  split
  · rename_i hin
    exact List.flatMap_congr fun u hu => by rw [hone u hu, if_pos hin]
  · rename_i hin
    rw [List.flatMap_eq_nil_iff]
    intro u hu
    rw [hone u hu, if_neg hin]

/-- Rules do not disturb each other: what is reported of a rule does not depend on the rules it runs
with, nor on the other options. -/
theorem C104_independent (m : Machine TreeUnit (RuleId → RuleMemory τ) κ) (st st' : OptionState)
    (apple : Bool) (body : RuleId → RuleBody τ) (limit : Int) (linesOf : TreeUnit → List Str)
    (found : RuleId → TreeUnit → List Finding) (rs bugs bugs' : List (CompileResult TreeUnit))
    (h : RulesRun m st apple body limit linesOf found rs bugs)
    (h' : RulesRun m st' apple body limit linesOf found rs bugs')
    (hnd : (runningRules m st).Nodup) (hnd' : (runningRules m st').Nodup) (rule : RuleId)
    (hin : rule ∈ runningRules m st) (hin' : rule ∈ runningRules m st') :
    ∃ c c', analysis m st = .ok c ∧ analysis m st' = .ok c' ∧
      (rawAll c .violations).filter (fun v => decide (v.rule = some rule)) =
        (rawAll c' .violations).filter fun v => decide (v.rule = some rule) := by
  obtain ⟨c, hc, hv, -⟩ := C104_findings m st apple body limit linesOf found rs bugs h
  obtain ⟨c', hc', hv', -⟩ := C104_findings m st' apple body limit linesOf found rs bugs' h'
  refine ⟨c, c', hc, hc', ?_⟩
  rw [hv, hv', C104_by_rule _ _ _ _ _ _ _ h.named hnd, C104_by_rule _ _ _ _ _ _ _ h.named hnd',
    if_pos hin, if_pos hin']

/-- A unit with one function; its fourth node is a statement of interest, and so is the third, on a line
with a marked comment. -/
def exTreeUnit (path : Str) : TreeUnit :=
  { source := ⟨path, some [some ("//!OCLINT".toList, 2)], [], "abc\nab".toList⟩
    opts := ⟨false, false, true, false⟩
    decls := [⟨1, true, true, true, false⟩, ⟨2, true, false, true, false⟩]
    tree :=
      { kind := fun n => if n < 2 then .decl (.plain []) else .stmt
        parents := fun n => if n = 0 then [] else [n - 1]
        acyclic := by
          intro n p h
          split at h
          · cases h
          · rw [List.mem_singleton.1 h]
            omega }
    locOf := fun n => ⟨path, n, 1, n, 5⟩ }

/-- A rule that finds these statements in the first declaration. -/
def exTreeRule : VisitorRule Unit :=
  { attributeName := "goto statement".toList
    languages := defaultSupportedLanguages
    cudaAttrs := defaultCUDAFunctionAttrs
    setUp := fun _ t => .ok t
    traverse := fun _ t d => .ok (t, if d = 1 then [⟨some 2, []⟩, ⟨none, []⟩, ⟨some 3, []⟩] else [])
    tearDown := fun _ t => .ok (t, []) }

/-- A machine with that rule and the long line rule, and two files. -/
def exTreeMachine : Machine TreeUnit (RuleId → RuleMemory Unit) Nat :=
  { env := { cwd := "/w".toList, home := none, binPath := "/b".toList, fs := fun _ => none,
             yaml := fun _ => ConfigFile.initial }
    listing := fun d => if d = "/b/../lib/oclint/rules".toList then some ["r".toList]
      else some ["t".toList]
    ruleLibrary := fun _ => some [4, 5]
    reporterLibrary := fun _ => some (some "text".toList)
    toolchain :=
      { absolutePath := id
        chdir := fun _ d => some d
        adjust := fun c f => c ++ [f]
        build := fun _ argv => ⟨[⟨true, "clang".toList, argv⟩], [], []⟩
        compile := fun _ argv => ⟨[], false, some (exTreeUnit (argv.getD 1 [])), true, [true]⟩ }
    mainExecutable := "/b/oclint".toList
    db := fun _ => [⟨"/w".toList, ["cc".toList]⟩]
    sources := ["a.c".toList, "b.c".toList]
    ruleIdentifier := fun r => if r = 4 then "LongLine".toList else "GotoStatement".toList
    priorityOf := fun _ => 3
    takeoff := rulesTakeoff false (some [("LONG_LINE".toList, "2".toList)])
      (fun r => if r = 4 then .longLine else .visitor exTreeRule)
    initialRules := fun _ => ⟨SuppressCache.empty, ()⟩
    hash := fun _ => 0
    canOpen := fun _ => false
    report := fun _ _ => .ok () }

/-- One long line and one statement in each file: too many if three are allowed. -/
example : mainProgram exTreeMachine
    (some { ruleConfiguration := ["LONG_LINE=2".toList], maxP3 := some 3 }) =
    .ok .VIOLATIONS_EXCEED_THRESHOLD := by decide +kernel
example : mainProgram exTreeMachine
    (some { ruleConfiguration := ["LONG_LINE=2".toList], maxP3 := some 4 }) =
    .ok .SUCCESS := by decide +kernel

/-- What the rule finds in a unit of that machine, whatever it did before. -/
theorem exTreeRule_steady (path : Str) :
    Steady exTreeRule (exTreeUnit path) [⟨some 2, []⟩, ⟨none, []⟩, ⟨some 3, []⟩] := by
  intro t
  have hshown : shownDecls exTreeRule (exTreeUnit path) = [1] := by
    unfold shownDecls exTreeUnit InMain
    simp
  refine ⟨t, FindsIn.looked (fs := [⟨some 2, []⟩, ⟨none, []⟩, ⟨some 3, []⟩]) (gs := [])
    (Or.inr ⟨⟨.c, ?_, ?_⟩, ?_⟩) rfl ?_ rfl⟩
  · exact .c rfl rfl rfl
  · decide
  · decide
  · rw [hshown]
    exact Visits.cons (fs := [⟨some 2, []⟩, ⟨none, []⟩, ⟨some 3, []⟩]) (gs := []) rfl (Visits.nil t)

/-- The theorems speak of that machine. -/
theorem exTreeMachine_run (st : OptionState) (hcfg : st.configurations = some [("LONG_LINE".toList, "2".toList)])
    (hchecker : st.argClangChecker.value = false) :
    RulesRun exTreeMachine st false
      (fun r => if r = 4 then .longLine else .visitor exTreeRule) 2
      (fun _ => ["abc".toList, "ab".toList])
      (fun _ _ => [⟨some 2, []⟩, ⟨none, []⟩, ⟨some 3, []⟩])
      [⟨[], false, some (exTreeUnit "a.c".toList), true, [true]⟩,
        ⟨[], false, some (exTreeUnit "b.c".toList), true, [true]⟩] [] := by
  have hunits : ([⟨[], false, some (exTreeUnit "a.c".toList), true, [true]⟩,
        ⟨[], false, some (exTreeUnit "b.c".toList), true, [true]⟩] :
        List (CompileResult TreeUnit)).filterMap unitOf =
      [exTreeUnit "a.c".toList, exTreeUnit "b.c".toList] := rfl
  have hrepl : Replaced "\\ ".toList " ".toList "/w".toList "/w".toList := by
    obtain ⟨t, ht, hr, -⟩ := C23_replacement "/w".toList "\\ ".toList " ".toList (by decide)
    have : stringReplace "/w".toList "\\ ".toList " ".toList = some "/w".toList := by decide +kernel
    rw [this] at ht
    cases ht
    exact hr
  have hjobs : jobsOf exTreeMachine.toolchain exTreeMachine.db exTreeMachine.sources =
      [("a.c".toList, ⟨"/w".toList, ["cc".toList]⟩), ("b.c".toList, ⟨"/w".toList, ["cc".toList]⟩)] := rfl
  have hcompiles : ∀ f : Str, f ≠ "-gmodules".toList →
      Compiles exTreeMachine.toolchain exTreeMachine.mainExecutable false "/w".toList
        (f, ⟨"/w".toList, ["cc".toList]⟩) ⟨[], false, some (exTreeUnit f), true, [true]⟩ "/w".toList := by
    intro f hf
    have hcall := ClangCall.normal (exe := exTreeMachine.mainExecutable) "cc".toList [f]
    have hfilter : ((exTreeMachine.mainExecutable :: [f]).filter
        fun a => decide (a ≠ "-gmodules".toList)) = [exTreeMachine.mainExecutable, f] := by
      rw [List.filter_cons_of_pos (by decide +kernel),
        List.filter_cons_of_pos (p := fun a : Str => decide (a ≠ "-gmodules".toList))
          (decide_eq_true hf), List.filter_nil]
    rw [hfilter] at hcall
    exact Compiles.mk (tc := exTreeMachine.toolchain) "/w".toList "/w".toList _
      ([exTreeMachine.mainExecutable, f] ++ ["-D__OCLINT__".toList]) hrepl rfl hcall
      ⟨_, [], rfl, .inl rfl, rfl, rfl, rfl⟩
  constructor
  · rw [hcfg]
    rfl
  · intro r
    rfl
  · intro rule _ r hb u hu
    rw [hunits] at hu
    have hr : r = exTreeRule := by
      split at hb
      · cases hb
      · exact (RuleBody.visitor.inj hb).symm
    rw [hr]
    rcases List.mem_cons.1 hu with rfl | hu
    · exact exTreeRule_steady _
    · rw [List.mem_singleton.1 hu]
      exact exTreeRule_steady _
  · intro _ _ _
    rw [hcfg]
    exact ⟨_, rfl⟩
  · refine ⟨"/w".toList, ?_, .inl ⟨hchecker, rfl⟩⟩
    rw [hjobs]
    exact .cons (hcompiles _ (by decide +kernel)) (.cons (hcompiles _ (by decide +kernel)) (.nil _))
  · intro u hu
    rw [hunits] at hu
    have hb : u.source.buffer = "abc\nab".toList := by
      rcases List.mem_cons.1 hu with rfl | hu
      · rfl
      · rw [List.mem_singleton.1 hu]
        rfl
    rw [hb]
    exact ⟨by decide +kernel, .inr ⟨by decide +kernel, .inr ⟨by decide +kernel, by decide +kernel⟩⟩⟩
  · intro u hu
    rw [hunits] at hu
    rcases List.mem_cons.1 hu with rfl | hu
    · unfold exTreeUnit
      decide +kernel
    · rw [List.mem_singleton.1 hu]
      unfold exTreeUnit
      decide +kernel
  · intro u hu v hv _
    rw [hunits] at hu hv
    have hall : ∀ w ∈ [exTreeUnit "a.c".toList, exTreeUnit "b.c".toList],
        w.source.comments = some [some ("//!OCLINT".toList, 2)] ∧ w.source.topDecls = [] := by
      intro w hw
      rcases List.mem_cons.1 hw with rfl | hw
      · exact ⟨rfl, rfl⟩
      · rw [List.mem_singleton.1 hw]
        exact ⟨rfl, rfl⟩
    exact ⟨(hall u hu).1.trans (hall v hv).1.symm, (hall u hu).2.trans (hall v hv).2.symm⟩

end Oclint
