import Mathlib.Data.List.Perm.Basic
import Mathlib.Data.List.Perm.Subperm
import Verif.Spec.Shards
import Verif.Props.TreeRun

/-!
# C113: the order of the sources and runs over parts of them
-/

namespace Oclint
open Spec

variable {τ κ : Type} {U : Type}

/-- A job compiles to this result, wherever one stands. -/
def CompilesTo (tc : Toolchain U) (exe : Str) (checker : Bool) (job : Str × CompileCommand)
    (r : CompileResult U) : Prop := ∀ cwd, ∃ cwd', Compiles tc exe checker cwd job r cwd'

theorem compilesTo_of (tc : Toolchain U) (exe : Str) (checker : Bool) (cwd cwd' : Str)
    (job : Str × CompileCommand) (r : CompileResult U) (jobs : List (Str × CompileCommand))
    (hjob : job ∈ jobs) (hs : Settled tc jobs) (h : Compiles tc exe checker cwd job r cwd') :
    CompilesTo tc exe checker job r := by
  intro there
  obtain ⟨dir, _, argv, cc1, hdir, hcd, hcall, hfe⟩ := h
  exact ⟨cwd', .mk dir cwd' argv cc1 hdir ((hs job hjob dir hdir there cwd).trans hcd) hcall hfe⟩

/-- Where compiling starts does not matter, and every job is compiled for itself. -/
theorem compileAll_each (tc : Toolchain U) (exe : Str) (checker : Bool) :
    ∀ (jobs : List (Str × CompileCommand)), Settled tc jobs → ∀ (cwd : Str) (rs : List (CompileResult U)),
      (∃ cwd', CompileAll tc exe checker cwd jobs rs cwd') ↔
        List.Forall₂ (CompilesTo tc exe checker) jobs rs := by
  intro jobs
  induction jobs with
  | nil =>
    intro _ cwd rs
    constructor
    · rintro ⟨_, h⟩
      cases h
      exact .nil
    · intro h
      cases h
      exact ⟨cwd, .nil cwd⟩
  | cons job jobs ih =>
    intro hs cwd rs
    have hs' : Settled tc jobs := fun j hj => hs j (List.mem_cons_of_mem _ hj)
    constructor
    · rintro ⟨_, h⟩
      cases h with
      | cons h1 h2 =>
        exact .cons (compilesTo_of tc exe checker _ _ job _ _ (List.mem_cons_self ..) hs h1)
          ((ih hs' _ _).1 ⟨_, h2⟩)
    · intro h
      cases h with
      | cons h1 h2 =>
        obtain ⟨mid, hmid⟩ := h1 cwd
        obtain ⟨cwd', hall⟩ := (ih hs' mid _).2 h2
        exact ⟨cwd', .cons hmid hall⟩

/-- What is recorded for a run, job by job. -/
structure Separately (m : Machine U (RuleId → RuleMemory τ) κ) (checker : Bool)
    (jobs : List (Str × CompileCommand)) (rs bugs : List (CompileResult U)) : Prop where
  results : List.Forall₂ (CompilesTo m.toolchain m.mainExecutable false) jobs rs
  off : checker = false → bugs = []
  on : checker = true → List.Forall₂ (CompilesTo m.toolchain m.mainExecutable true) jobs bugs

theorem separately_iff (m : Machine U (RuleId → RuleMemory τ) κ) (checker : Bool)
    (jobs : List (Str × CompileCommand)) (hs : Settled m.toolchain jobs) (start : Str)
    (rs bugs : List (CompileResult U)) :
    (∃ cwd, CompileAll m.toolchain m.mainExecutable false start jobs rs cwd ∧
      CheckerPass m.toolchain m.mainExecutable checker cwd jobs bugs) ↔
      Separately m checker jobs rs bugs := by
  constructor
  · rintro ⟨cwd, h1, h2⟩
    refine ⟨(compileAll_each _ _ _ _ hs _ _).1 ⟨_, h1⟩, ?_, ?_⟩
    · rcases h2 with ⟨-, h⟩ | ⟨h, -⟩
      · exact fun _ => h
      · intro h'
        rw [h] at h'
        cases h'
    · rcases h2 with ⟨h, -⟩ | ⟨-, h⟩
      · intro h'
        rw [h] at h'
        cases h'
      · exact fun _ => (compileAll_each _ _ _ _ hs _ _).1 h
  · intro h
    obtain ⟨cwd, h1⟩ := (compileAll_each _ _ _ _ hs start _).2 h.results
    refine ⟨cwd, h1, ?_⟩
    cases hc : checker with
    | false => exact .inl ⟨rfl, h.off hc⟩
    | true => exact .inr ⟨rfl, (compileAll_each _ _ _ _ hs cwd _).2 (h.on hc)⟩

theorem forall₂_sublist {α β : Type} {R : α → β → Prop} {l' l : List α} (hl : l'.Sublist l) :
    ∀ {r : List β}, List.Forall₂ R l r → ∃ r', r'.Sublist r ∧ List.Forall₂ R l' r' := by
  induction hl with
  | slnil =>
    intro r h
    exact ⟨r, List.Sublist.refl _, h⟩
  | cons a _ ih =>
    intro r h
    cases h with
    | cons h1 h2 =>
      obtain ⟨r', hr, hf⟩ := ih h2
      exact ⟨r', hr.cons _, hf⟩
  | cons_cons a _ ih =>
    intro r h
    cases h with
    | cons h1 h2 =>
      obtain ⟨r', hr, hf⟩ := ih h2
      exact ⟨_, hr.cons_cons _, .cons h1 hf⟩

theorem forall₂_perm {α β : Type} {R : α → β → Prop} {l' l : List α} (hl : l'.Perm l) {r : List β}
    (h : List.Forall₂ R l r) : ∃ r', r'.Perm r ∧ List.Forall₂ R l' r' := by
  obtain ⟨r', h1, h2⟩ := List.perm_comp_forall₂ hl h
  exact ⟨r', h2, h1⟩

theorem forall₂_split {α β : Type} {R : α → β → Prop} (l1 : List α) : ∀ {l2 : List α} {r : List β},
    List.Forall₂ R (l1 ++ l2) r → ∃ r1 r2, r = r1 ++ r2 ∧ List.Forall₂ R l1 r1 ∧ List.Forall₂ R l2 r2 := by
  induction l1 with
  | nil => exact fun h => ⟨[], _, rfl, .nil, h⟩
  | cons a l1 ih =>
    intro l2 r h
    cases h with
    | cons h1 h2 =>
      obtain ⟨r1, r2, rfl, hf1, hf2⟩ := ih h2
      exact ⟨_, r2, rfl, .cons h1 hf1, hf2⟩

theorem jobsOf_perm (tc : Toolchain U) (db : Str → List CompileCommand) {ss' ss : List Str}
    (h : ss'.Perm ss) : (jobsOf tc db ss').Perm (jobsOf tc db ss) := h.flatMap_right _

theorem jobsOf_sublist (tc : Toolchain U) (db : Str → List CompileCommand) {ss' ss : List Str}
    (h : ss'.Sublist ss) : (jobsOf tc db ss').Sublist (jobsOf tc db ss) := by
  unfold jobsOf
  induction h with
  | slnil => exact List.Sublist.refl _
  | cons a _ ih =>
    rw [List.flatMap_cons]
    exact ih.trans (List.sublist_append_right _ _)
  | cons_cons a _ ih =>
    rw [List.flatMap_cons, List.flatMap_cons]
    exact (List.Sublist.refl _).append ih

/-- A run over other sources, of which nothing else is seen than of these. -/
theorem rulesRun_over (m : Machine TreeUnit (RuleId → RuleMemory τ) κ) (st : OptionState)
    (apple : Bool) (body : RuleId → RuleBody τ) (limit : Int) (linesOf : TreeUnit → List Str)
    (found : RuleId → TreeUnit → List Finding) (rs bugs rs' bugs' : List (CompileResult TreeUnit))
    (ss : List Str) (h : RulesRun m st apple body limit linesOf found rs bugs)
    (hs : Settled m.toolchain (jobsOf m.toolchain m.db ss)) (hsub : ∀ r ∈ rs', r ∈ rs)
    (hsep : Separately m st.argClangChecker.value (jobsOf m.toolchain m.db ss) rs' bugs') :
    RulesRun (over m ss) st apple body limit linesOf found rs' bugs' := by
  have hmem : ∀ u ∈ rs'.filterMap unitOf, u ∈ rs.filterMap unitOf := by
    intro u hu
    obtain ⟨r, hr, hru⟩ := List.mem_filterMap.1 hu
    exact List.mem_filterMap.2 ⟨r, hsub r hr, hru⟩
  exact
    { takeoff := h.takeoff
      fresh := h.fresh
      steady := fun rule hrule r hb u hu => h.steady rule hrule r hb u (hmem u hu)
      limit := h.limit
      compiled := (separately_iff m _ _ hs _ _ _).2 hsep
      lines := fun u hu => h.lines u (hmem u hu)
      named := fun u hu => h.named u (hmem u hu)
      agree := fun u hu v hv => h.agree u (hmem u hu) v (hmem v hv) }

/-- A run over the sources in another order. -/
theorem C113_reordered (m : Machine TreeUnit (RuleId → RuleMemory τ) κ) (st : OptionState)
    (apple : Bool) (body : RuleId → RuleBody τ) (limit : Int) (linesOf : TreeUnit → List Str)
    (found : RuleId → TreeUnit → List Finding) (rs bugs : List (CompileResult TreeUnit))
    (ss : List Str) (h : RulesRun m st apple body limit linesOf found rs bugs)
    (hs : Settled m.toolchain (jobsOf m.toolchain m.db m.sources)) (hss : ss.Perm m.sources) :
    ∃ rs' bugs', rs'.Perm rs ∧ bugs'.Perm bugs ∧
      RulesRun (over m ss) st apple body limit linesOf found rs' bugs' := by
  have hsep := (separately_iff m _ _ hs _ _ _).1 h.compiled
  have hperm := jobsOf_perm m.toolchain m.db hss
  have hs' : Settled m.toolchain (jobsOf m.toolchain m.db ss) := fun j hj => hs j (hperm.mem_iff.1 hj)
  obtain ⟨rs', hrs, hrun⟩ := forall₂_perm hperm hsep.results
  cases hc : st.argClangChecker.value with
  | false =>
    refine ⟨rs', [], hrs, ?_, rulesRun_over m st apple body limit linesOf found rs bugs rs' _ ss h hs'
      (fun r hr => hrs.mem_iff.1 hr) ⟨hrun, fun _ => rfl, fun e => ?_⟩⟩
    · rw [hsep.off hc]
    · rw [hc] at e
      cases e
  | true =>
    obtain ⟨bugs', hbugs, hrunb⟩ := forall₂_perm hperm (hsep.on hc)
    refine ⟨rs', bugs', hrs, hbugs, rulesRun_over m st apple body limit linesOf found rs bugs rs' _ ss h
      hs' (fun r hr => hrs.mem_iff.1 hr) ⟨hrun, fun e => ?_, fun _ => hrunb⟩⟩
    rw [hc] at e
    cases e

/-- A run over some of the sources. -/
theorem C113_fewer (m : Machine TreeUnit (RuleId → RuleMemory τ) κ) (st : OptionState)
    (apple : Bool) (body : RuleId → RuleBody τ) (limit : Int) (linesOf : TreeUnit → List Str)
    (found : RuleId → TreeUnit → List Finding) (rs bugs : List (CompileResult TreeUnit))
    (ss : List Str) (h : RulesRun m st apple body limit linesOf found rs bugs)
    (hs : Settled m.toolchain (jobsOf m.toolchain m.db m.sources)) (hss : ss.Sublist m.sources) :
    ∃ rs' bugs', rs'.Sublist rs ∧ bugs'.Sublist bugs ∧
      RulesRun (over m ss) st apple body limit linesOf found rs' bugs' := by
  have hsep := (separately_iff m _ _ hs _ _ _).1 h.compiled
  have hsub := jobsOf_sublist m.toolchain m.db hss
  have hs' : Settled m.toolchain (jobsOf m.toolchain m.db ss) := fun j hj => hs j (hsub.subset hj)
  obtain ⟨rs', hrs, hrun⟩ := forall₂_sublist hsub hsep.results
  cases hc : st.argClangChecker.value with
  | false =>
    refine ⟨rs', [], hrs, List.nil_sublist _, rulesRun_over m st apple body limit linesOf found rs bugs
      rs' _ ss h hs' (fun r hr => hrs.subset hr) ⟨hrun, fun _ => rfl, fun e => ?_⟩⟩
    rw [hc] at e
    cases e
  | true =>
    obtain ⟨bugs', hbugs, hrunb⟩ := forall₂_sublist hsub (hsep.on hc)
    refine ⟨rs', bugs', hrs, hbugs, rulesRun_over m st apple body limit linesOf found rs bugs rs' _ ss h
      hs' (fun r hr => hrs.subset hr) ⟨hrun, fun e => ?_, fun _ => hrunb⟩⟩
    rw [hc] at e
    cases e

/-- Runs over two parts of the sources, one after the other. -/
theorem C113_split (m : Machine TreeUnit (RuleId → RuleMemory τ) κ) (st : OptionState)
    (apple : Bool) (body : RuleId → RuleBody τ) (limit : Int) (linesOf : TreeUnit → List Str)
    (found : RuleId → TreeUnit → List Finding) (rs bugs : List (CompileResult TreeUnit))
    (ss ts : List Str) (h : RulesRun m st apple body limit linesOf found rs bugs)
    (hs : Settled m.toolchain (jobsOf m.toolchain m.db m.sources)) (hss : m.sources = ss ++ ts) :
    ∃ c c1 c2, analysis m st = .ok c ∧ analysis (over m ss) st = .ok c1 ∧
      analysis (over m ts) st = .ok c2 ∧
      ∀ ch, rawAll c ch = rawAll c1 ch ++ rawAll c2 ch := by
  have hsep := (separately_iff m _ _ hs _ _ _).1 h.compiled
  have hjobs : jobsOf m.toolchain m.db m.sources =
      jobsOf m.toolchain m.db ss ++ jobsOf m.toolchain m.db ts := by
    rw [hss]
    exact List.flatMap_append
  have hs1 : Settled m.toolchain (jobsOf m.toolchain m.db ss) :=
    fun j hj => hs j (by rw [hjobs]; exact List.mem_append_left _ hj)
  have hs2 : Settled m.toolchain (jobsOf m.toolchain m.db ts) :=
    fun j hj => hs j (by rw [hjobs]; exact List.mem_append_right _ hj)
  rw [hjobs] at hsep
  obtain ⟨rs1, rs2, hrs, hf1, hf2⟩ := forall₂_split _ hsep.results
  have hbugs : ∃ bugs1 bugs2, bugs = bugs1 ++ bugs2 ∧
      Separately m st.argClangChecker.value (jobsOf m.toolchain m.db ss) rs1 bugs1 ∧
      Separately m st.argClangChecker.value (jobsOf m.toolchain m.db ts) rs2 bugs2 := by
    cases hc : st.argClangChecker.value with
    | false => exact ⟨[], [], hsep.off hc, ⟨hf1, fun _ => rfl, nofun⟩, ⟨hf2, fun _ => rfl, nofun⟩⟩
    | true =>
      obtain ⟨b1, b2, hb, hg1, hg2⟩ := forall₂_split _ (hsep.on hc)
      exact ⟨b1, b2, hb, ⟨hf1, nofun, fun _ => hg1⟩, ⟨hf2, nofun, fun _ => hg2⟩⟩
  obtain ⟨bugs1, bugs2, hb, hsep1, hsep2⟩ := hbugs
  have h1 := rulesRun_over m st apple body limit linesOf found rs bugs rs1 bugs1 ss h hs1
    (fun r hr => by rw [hrs]; exact List.mem_append_left _ hr) hsep1
  have h2 := rulesRun_over m st apple body limit linesOf found rs bugs rs2 bugs2 ts h hs2
    (fun r hr => by rw [hrs]; exact List.mem_append_right _ hr) hsep2
  refine ⟨_, _, _, C104_collected m st apple body limit linesOf found rs bugs h,
    C104_collected _ st apple body limit linesOf found rs1 bugs1 h1,
    C104_collected _ st apple body limit linesOf found rs2 bugs2 h2, ?_⟩
  have hrun : ∀ l, runningRules (over m l) st = runningRules m st := fun _ => rfl
  intro ch
  rw [hrun, hrun, hrs, hb]
  cases ch <;> unfold rawAll collected entriesOf <;>
    simp [ResultCollector.empty, collectAll_eq, List.filterMap_append]

theorem allReports_perm (apple : Bool) (body : RuleId → RuleBody τ) (limit : Int)
    (linesOf : TreeUnit → List Str) (found : RuleId → TreeUnit → List Finding) (rules : List RuleId)
    {us' us : List TreeUnit} (h : us'.Perm us) :
    (allReports apple body limit linesOf found rules us').Perm
      (allReports apple body limit linesOf found rules us) := h.flatMap_right _

theorem allReports_sublist (apple : Bool) (body : RuleId → RuleBody τ) (limit : Int)
    (linesOf : TreeUnit → List Str) (found : RuleId → TreeUnit → List Finding) (rules : List RuleId)
    {us' us : List TreeUnit} (h : us'.Sublist us) :
    (allReports apple body limit linesOf found rules us').Sublist
      (allReports apple body limit linesOf found rules us) := by
  unfold allReports
  induction h with
  | slnil => exact List.Sublist.refl _
  | cons a _ ih =>
    rw [List.flatMap_cons]
    exact ih.trans (List.sublist_append_right _ _)
  | cons_cons a _ ih =>
    rw [List.flatMap_cons, List.flatMap_cons]
    exact (List.Sublist.refl _).append ih

theorem firsts_subperm {vs' vs : List Violation} (h : vs' ⊆ vs) : (firsts vs').Subperm (firsts vs) :=
  List.subperm_of_subset (nodup_firsts vs') fun v hv =>
    (mem_firsts v vs).2 (h ((mem_firsts v vs').1 hv))

theorem countWithPriority_subperm (priorityOf : RuleId → Int) (p : Int) {vs' vs : List Violation}
    (h : vs'.Subperm vs) : countWithPriority priorityOf p vs' ≤ countWithPriority priorityOf p vs :=
  (h.filter _).length_le

theorem withinLimits_subperm {σ : Type} (m : Machine U σ κ) (st : OptionState) {vs' vs : List Violation}
    (h : vs'.Subperm vs) (hl : WithinLimits m st vs) : WithinLimits m st vs' := by
  have := fun p => countWithPriority_subperm m.priorityOf p h
  unfold WithinLimits at *
  have h1 := this 1
  have h2 := this 2
  have h3 := this 3
  omega

/-- What is recorded of a run over the sources in another order is the same, in another order. -/
theorem C113_same_answers (m : Machine TreeUnit (RuleId → RuleMemory τ) κ) (st : OptionState)
    (apple : Bool) (body : RuleId → RuleBody τ) (limit : Int) (linesOf : TreeUnit → List Str)
    (found : RuleId → TreeUnit → List Finding) (rs bugs : List (CompileResult TreeUnit))
    (ss : List Str) (h : RulesRun m st apple body limit linesOf found rs bugs)
    (hs : Settled m.toolchain (jobsOf m.toolchain m.db m.sources)) (hss : ss.Perm m.sources) :
    ∃ c c', analysis m st = .ok c ∧ analysis (over m ss) st = .ok c' ∧
      ∀ ch, (rawAll c' ch).Perm (rawAll c ch) ∧ (answers st c' ch).Perm (answers st c ch) := by
  obtain ⟨rs', bugs', hrs, hbugs, h'⟩ := C113_reordered m st apple body limit linesOf found rs bugs ss h
    hs hss
  refine ⟨_, _, C104_collected m st apple body limit linesOf found rs bugs h,
    C104_collected _ st apple body limit linesOf found rs' bugs' h', ?_⟩
  have hrun : runningRules (over m ss) st = runningRules m st := rfl
  rw [hrun]
  have hraw : ∀ ch, (rawAll (collected ResultCollector.empty rs' bugs' ((rs'.filterMap unitOf).map
        fun u => (runningRules m st).flatMap (reportsOf apple limit linesOf found body u))) ch).Perm
      (rawAll (collected ResultCollector.empty rs bugs ((rs.filterMap unitOf).map
        fun u => (runningRules m st).flatMap (reportsOf apple limit linesOf found body u))) ch) := by
    intro ch
    cases ch <;> unfold rawAll collected entriesOf <;>
      simp only [ResultCollector.empty, collectAll_eq, List.nil_append]
    · exact ((hrs.filterMap unitOf).map _).flatten
    · exact ((hrs.flatMap_right _).filter _).map _
    · exact ((hrs.flatMap_right _).filter _).map _
    · exact ((hbugs.flatMap_right _).filter _).map _
  intro ch
  refine ⟨hraw ch, ?_⟩
  unfold answers
  split
  · exact hraw ch
  · rw [List.perm_ext_iff_of_nodup (nodup_firsts _) (nodup_firsts _)]
    intro v
    rw [mem_firsts, mem_firsts, (hraw ch).mem_iff]

open Classical in
/-- The exit code does not depend on the order of the sources. -/
theorem C113_exit_order [DecidableEq κ] (m : Machine TreeUnit (RuleId → RuleMemory τ) κ)
    (cli : CommandLine) (st : OptionState) (apple : Bool) (body : RuleId → RuleBody τ) (limit : Int)
    (linesOf : TreeUnit → List Str) (found : RuleId → TreeUnit → List Finding)
    (rs bugs : List (CompileResult TreeUnit)) (ss : List Str) (hst : processOptions m.env cli = .ok st)
    (h : RulesRun m st apple body limit linesOf found rs bugs) (hload : RulesLoad m st) (reporter : Str)
    (hrep : loadReporter m.listing m.reporterLibrary st.argReportType.value (reporterDir m.env) =
      .ok reporter)
    (hreport : ∀ a, Reported m st reporter a = .ok ())
    (hs : Settled m.toolchain (jobsOf m.toolchain m.db m.sources)) (hss : ss.Perm m.sources) :
    mainProgram (over m ss) (some cli) = mainProgram m (some cli) := by
  obtain ⟨rs', bugs', hrs, -, h'⟩ := C113_reordered m st apple body limit linesOf found rs bugs ss h
    hs hss
  rw [C104_exit m cli st apple body limit linesOf found rs bugs hst h hload reporter hrep hreport,
    C104_exit (over m ss) cli st apple body limit linesOf found rs' bugs' hst h' hload reporter hrep
      hreport]
  have herr : (∃ r ∈ rs', ∃ d ∈ r.diagnostics, d.level = .error ∨ d.level = .fatal) ↔
      ∃ r ∈ rs, ∃ d ∈ r.diagnostics, d.level = .error ∨ d.level = .fatal := by
    simp only [hrs.mem_iff]
  have hp := allReports_perm apple body limit linesOf found (runningRules m st)
    (hrs.filterMap unitOf)
  have hlim : WithinLimits (over m ss) st
      (if st.argDuplications.value then
        allReports apple body limit linesOf found (runningRules (over m ss) st) (rs'.filterMap unitOf)
      else firsts
        (allReports apple body limit linesOf found (runningRules (over m ss) st)
          (rs'.filterMap unitOf))) ↔
      WithinLimits m st
      (if st.argDuplications.value then
        allReports apple body limit linesOf found (runningRules m st) (rs.filterMap unitOf)
      else firsts
        (allReports apple body limit linesOf found (runningRules m st) (rs.filterMap unitOf))) := by
    change WithinLimits m st _ ↔ _
    split
    · exact ⟨withinLimits_subperm m st hp.symm.subperm, withinLimits_subperm m st hp.subperm⟩
    · exact ⟨withinLimits_subperm m st (firsts_subperm hp.symm.subset),
        withinLimits_subperm m st (firsts_subperm hp.subset)⟩
  simp only [herr, hlim]

open Classical in
/-- If all is well with the sources, all is well with some of them. -/
theorem C113_exit_fewer [DecidableEq κ] (m : Machine TreeUnit (RuleId → RuleMemory τ) κ)
    (cli : CommandLine) (st : OptionState) (apple : Bool) (body : RuleId → RuleBody τ) (limit : Int)
    (linesOf : TreeUnit → List Str) (found : RuleId → TreeUnit → List Finding)
    (rs bugs : List (CompileResult TreeUnit)) (ss : List Str) (hst : processOptions m.env cli = .ok st)
    (h : RulesRun m st apple body limit linesOf found rs bugs) (hload : RulesLoad m st) (reporter : Str)
    (hrep : loadReporter m.listing m.reporterLibrary st.argReportType.value (reporterDir m.env) =
      .ok reporter)
    (hreport : ∀ a, Reported m st reporter a = .ok ())
    (hs : Settled m.toolchain (jobsOf m.toolchain m.db m.sources)) (hss : ss.Sublist m.sources)
    (hok : mainProgram m (some cli) = .ok .SUCCESS) :
    mainProgram (over m ss) (some cli) = .ok .SUCCESS := by
  obtain ⟨rs', bugs', hrs, -, h'⟩ := C113_fewer m st apple body limit linesOf found rs bugs ss h
    hs hss
  rw [C104_exit m cli st apple body limit linesOf found rs bugs hst h hload reporter hrep hreport] at hok
  rw [C104_exit (over m ss) cli st apple body limit linesOf found rs' bugs' hst h' hload reporter hrep
      hreport]
  have hp := allReports_sublist apple body limit linesOf found (runningRules m st)
    (hrs.filterMap unitOf)
  have hno : ¬ ∃ r ∈ rs, ∃ d ∈ r.diagnostics, d.level = .error ∨ d.level = .fatal := by
    intro herr
    rw [if_pos herr] at hok
    cases hok
  have hl : WithinLimits m st
      (if st.argDuplications.value then
        allReports apple body limit linesOf found (runningRules m st) (rs.filterMap unitOf)
      else firsts
        (allReports apple body limit linesOf found (runningRules m st) (rs.filterMap unitOf))) := by
    by_contra hl
    rw [if_neg hno, if_neg hl] at hok
    cases hok
  rw [if_neg, if_pos]
  · change WithinLimits m st _
    refine withinLimits_subperm m st ?_ hl
    split
    · exact hp.subperm
    · exact firsts_subperm hp.subset
  · rintro ⟨r, hr, hd⟩
    exact hno ⟨r, hrs.subset hr, hd⟩

/-- The theorems speak of the machine with two files. -/
example (st : OptionState) (hcfg : st.configurations = some [("LONG_LINE".toList, "2".toList)])
    (hchecker : st.argClangChecker.value = false) :
    ∃ c c1 c2, analysis exTreeMachine st = .ok c ∧ analysis (over exTreeMachine ["a.c".toList]) st = .ok c1 ∧
      analysis (over exTreeMachine ["b.c".toList]) st = .ok c2 ∧
      ∀ ch, rawAll c ch = rawAll c1 ch ++ rawAll c2 ch :=
  C113_split exTreeMachine st _ _ _ _ _ _ _ _ _ (exTreeMachine_run st hcfg hchecker)
    (fun _ _ _ _ _ _ => rfl) rfl

/-- Four violations in two files, two in each. -/
example : mainProgram (over exTreeMachine ["b.c".toList, "a.c".toList])
      (some { ruleConfiguration := ["LONG_LINE=2".toList], maxP3 := some 3 }) =
      .ok .VIOLATIONS_EXCEED_THRESHOLD ∧
    mainProgram (over exTreeMachine ["b.c".toList])
      (some { ruleConfiguration := ["LONG_LINE=2".toList], maxP3 := some 2 }) = .ok .SUCCESS ∧
    mainProgram (over exTreeMachine ["b.c".toList])
      (some { ruleConfiguration := ["LONG_LINE=2".toList], maxP3 := some 1 }) =
      .ok .VIOLATIONS_EXCEED_THRESHOLD := by
  refine ⟨?_, ?_, ?_⟩ <;> decide +kernel

/-- The machine with a directory for each file, of which the second is named from the first. -/
def exNestedMachine : Machine TreeUnit (RuleId → RuleMemory Unit) Nat :=
  { exTreeMachine with
    toolchain :=
      { exTreeMachine.toolchain with
        chdir := fun here d =>
          if d = "/w/sub".toList then some d
          else if here = "/w/sub".toList ∧ d = "deep".toList then some "/w/sub/deep".toList
          else none }
    db := fun f => [⟨if f = "a.c".toList then "/w/sub".toList else "deep".toList, ["cc".toList]⟩] }

/-- Where a directory is named from where one stands, the order of the sources decides whether they are
analysed at all, and so does leaving one out. -/
theorem C113_relative_directory :
    mainProgram (over exNestedMachine ["a.c".toList, "b.c".toList])
      (some { ruleConfiguration := ["LONG_LINE=2".toList] }) = .ok .SUCCESS ∧
    mainProgram (over exNestedMachine ["b.c".toList, "a.c".toList])
      (some { ruleConfiguration := ["LONG_LINE=2".toList] }) = .ok .ERROR_WHILE_PROCESSING ∧
    mainProgram (over exNestedMachine ["b.c".toList])
      (some { ruleConfiguration := ["LONG_LINE=2".toList] }) = .ok .ERROR_WHILE_PROCESSING ∧
    ¬ Settled exNestedMachine.toolchain
      (jobsOf exNestedMachine.toolchain exNestedMachine.db ["a.c".toList, "b.c".toList]) := by
  refine ⟨by decide +kernel, by decide +kernel, by decide +kernel, fun h => ?_⟩
  have hrepl : JobDirectory ("b.c".toList, ⟨"deep".toList, ["cc".toList]⟩) "deep".toList := by
    obtain ⟨t, ht, hr, -⟩ := C23_replacement "deep".toList "\\ ".toList " ".toList (by decide)
    have : stringReplace "deep".toList "\\ ".toList " ".toList = some "deep".toList := by decide +kernel
    rw [this] at ht
    cases ht
    exact hr
  have := h ("b.c".toList, ⟨"deep".toList, ["cc".toList]⟩)
    (List.mem_cons_of_mem _ (List.mem_singleton.2 rfl)) "deep".toList hrepl "/w/sub".toList "/w".toList
  revert this
  decide +kernel

end Oclint
