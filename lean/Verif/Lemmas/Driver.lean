import Verif.Spec.Driver
import Verif.Spec.Results

/-!
# Lemmas about plugin loading and the driver
-/

namespace Oclint
open Spec

/-! ## String replacement -/

theorem findFrom_eq_some {s pat : Str} {start i : Nat} :
    findFrom s pat start = some i ↔
      start ≤ i ∧ i ≤ s.length ∧ pat <+: s.drop i ∧
        ∀ j, start ≤ j → j < i → ¬ pat <+: s.drop j := by
  unfold findFrom
  rw [List.find?_eq_some_iff_getElem]
  simp only [Bool.and_eq_true, decide_eq_true_eq, List.isPrefixOf_iff_prefix, List.length_range,
    List.getElem_range, Bool.not_eq_true', Bool.and_eq_false_iff, decide_eq_false_iff_not]
  constructor
  · rintro ⟨⟨h1, h2⟩, k, hk, rfl, h3⟩
    refine ⟨h1, by omega, h2, fun j hj hjk hp => ?_⟩
    rcases h3 j hjk with h | h
    · exact h hj
    · rw [← List.isPrefixOf_iff_prefix] at hp
      rw [h] at hp; exact absurd hp (by simp)
  · rintro ⟨h1, h2, h3, h4⟩
    refine ⟨⟨h1, h3⟩, i, by omega, rfl, fun j hj => ?_⟩
    by_cases hs : start ≤ j
    · right
      have := h4 j hs hj
      rw [← List.isPrefixOf_iff_prefix] at this
      exact Bool.eq_false_iff.2 this
    · left; exact hs

theorem findFrom_eq_none {s pat : Str} {start : Nat} :
    findFrom s pat start = none ↔
      ∀ j, start ≤ j → j ≤ s.length → ¬ pat <+: s.drop j := by
  unfold findFrom
  rw [List.find?_eq_none]
  simp only [List.mem_range, Bool.and_eq_true, decide_eq_true_eq, List.isPrefixOf_iff_prefix]
  constructor
  · intro h j h1 h2 h3; exact h j (by omega) ⟨h1, h3⟩
  · intro h j h1 h2; exact h j h2.1 (by omega) h2.2

/-- Searching behind an already processed part. -/
theorem findFrom_append (d r pat : Str) :
    findFrom (d ++ r) pat d.length = (findFrom r pat 0).map (· + d.length) := by
  cases h : findFrom r pat 0 with
  | none =>
    rw [findFrom_eq_none] at h
    simp only [Option.map_none]
    rw [findFrom_eq_none]
    intro j hj hl hp
    rw [List.drop_append, List.drop_eq_nil_of_le hj, List.nil_append] at hp
    exact h (j - d.length) (by omega) (by simp at hl; omega) hp
  | some i =>
    rw [findFrom_eq_some] at h
    simp only [Option.map_some]
    rw [findFrom_eq_some]
    refine ⟨by omega, by simp; omega, ?_, ?_⟩
    · rw [List.drop_append, List.drop_eq_nil_of_le (by omega), List.nil_append]
      simpa using h.2.2.1
    · intro j hj hl hp
      rw [List.drop_append, List.drop_eq_nil_of_le hj, List.nil_append] at hp
      exact h.2.2.2 (j - d.length) (by omega) (by omega) hp

theorem replaced_of_none {old new : Str} : ∀ {s : Str}, findFrom s old 0 = none →
    Replaced old new s s
  | [], _ => .done
  | c :: s, h => by
    rw [findFrom_eq_none] at h
    refine .keep c s s (by simpa using h 0) (replaced_of_none ?_)
    rw [findFrom_eq_none]
    intro j _ hl hp
    exact h (j + 1) (by omega) (by simp; omega) (by simpa using hp)

theorem replaced_of_some {old new t : Str} : ∀ {s : Str} {i : Nat}, findFrom s old 0 = some i →
    Replaced old new (s.drop (i + old.length)) t →
    Replaced old new s (s.take i ++ new ++ t)
  | s, 0, h, hr => by
    rw [findFrom_eq_some] at h
    obtain ⟨u, hu⟩ := h.2.2.1
    simp only [List.drop_zero] at hu
    subst hu
    simp only [List.drop_left, Nat.zero_add] at hr
    simpa using Replaced.hit u t hr
  | [], i + 1, h, _ => by
    rw [findFrom_eq_some] at h
    simp at h
  | c :: s, i + 1, h, hr => by
    rw [findFrom_eq_some] at h
    have hi : findFrom s old 0 = some i := by
      rw [findFrom_eq_some]
      refine ⟨by omega, by have := h.2.1; simp at this; omega, by simpa using h.2.2.1, ?_⟩
      intro j _ hj hp
      exact h.2.2.2 (j + 1) (by omega) (by omega) (by simpa using hp)
    have hr' : Replaced old new (s.drop (i + old.length)) t := by
      have : i + 1 + old.length = (i + old.length) + 1 := by omega
      rw [this] at hr
      simpa using hr
    have := replaced_of_some (new := new) hi hr'
    simpa using Replaced.keep c s _ (by simpa using h.2.2.2 0 (by omega) (by omega)) this

theorem replaceIter_none (old new : Str) (n : Nat) (s : Str) :
    replaceIter old new n (s, none) = (s, none) := by
  induction n with
  | zero => rfl
  | succ n ih => simpa [replaceIter, replaceStep] using ih

theorem replaceIter_succ' (old new : Str) (n : Nat) (st : Str × Option Nat) :
    replaceIter old new (n + 1) st = replaceStep old new (replaceIter old new n st) := by
  induction n generalizing st with
  | zero => rfl
  | succ n ih => rw [replaceIter, ih]; rfl

/-- The loop started behind a finished part `d` with `r` still to do. -/
theorem replaceIter_spec {old : Str} (new : Str) (hold : old ≠ []) :
    ∀ (n : Nat) (d r : Str), r.length < n →
      ∃ t, replaceIter old new n (d ++ r, findFrom (d ++ r) old d.length) = (d ++ t, none) ∧
        Replaced old new r t := by
  intro n
  induction n with
  | zero => intro d r h; omega
  | succ n ih =>
    intro d r hlen
    rw [findFrom_append]
    cases h : findFrom r old 0 with
    | none =>
      simp only [Option.map_none]
      exact ⟨r, replaceIter_none _ _ _ _, replaced_of_none h⟩
    | some i =>
      have hs := findFrom_eq_some.1 h
      have hol : 0 < old.length := List.length_pos_iff.2 hold
      have hpl : i + old.length ≤ r.length := by
        have := hs.2.2.1.length_le
        simp at this
        omega
      simp only [Option.map_some, replaceIter, replaceStep]
      have e1 : List.take (i + d.length) (d ++ r) ++ new ++
          List.drop (i + d.length + old.length) (d ++ r) =
          (d ++ (r.take i ++ new)) ++ r.drop (i + old.length) := by
        rw [List.take_append, List.drop_append, List.drop_eq_nil_of_le (by omega),
          List.take_of_length_le (by omega)]
        have h1 : i + d.length - d.length = i := by omega
        have h2 : i + d.length + old.length - d.length = i + old.length := by omega
        rw [h1, h2]; simp
      have e2 : i + d.length + new.length = (d ++ (r.take i ++ new)).length := by
        simp; omega
      rw [e1, e2]
      obtain ⟨t, ht, hr⟩ := ih (d ++ (r.take i ++ new)) (r.drop (i + old.length))
        (by simp; omega)
      exact ⟨r.take i ++ new ++ t, by rw [ht]; simp, replaced_of_some h hr⟩

theorem replaced_unique {old new : Str} (hold : old ≠ []) {s t t' : Str}
    (h : Replaced old new s t) (h' : Replaced old new s t') : t = t' := by
  induction h generalizing t' with
  | done =>
    generalize he : ([] : Str) = e at h'
    cases h' with
    | done => rfl
    | hit s t h => exact absurd (List.append_eq_nil_iff.1 he.symm).1 hold
    | keep => simp at he
  | hit s t _ ih =>
    generalize he : old ++ s = e at h'
    cases h' with
    | done => exact absurd (List.append_eq_nil_iff.1 he).1 hold
    | hit s' t' h =>
      have := List.append_cancel_left he
      subst this
      rw [ih h]
    | keep c s' t' hn h =>
      exfalso; exact hn ⟨s, he⟩
  | keep c s t hn _ ih =>
    generalize he : c :: s = e at h'
    cases h' with
    | done => simp at he
    | hit s' t' h => exfalso; exact hn ⟨s', he.symm⟩
    | keep c' s' t' _ h =>
      simp only [List.cons.injEq] at he
      obtain ⟨rfl, rfl⟩ := he
      rw [ih h]

theorem stringReplace_spec {orig old new t : Str} (hold : old ≠ []) :
    stringReplace orig old new = some t ↔ Replaced old new orig t := by
  obtain ⟨t', ht, hr⟩ := replaceIter_spec new hold (orig.length + 1) [] orig (by omega)
  simp only [List.nil_append, List.length_nil] at ht
  have : stringReplace orig old new = some t' := by
    simp [stringReplace, ht]
  rw [this]
  constructor
  · intro h; simp only [Option.some.injEq] at h; exact h ▸ hr
  · intro h; rw [replaced_unique hold h hr]

/-! ## Argument vector -/

theorem argvLoop_spec (cmd : List Str) (stop : Nat) (hstop : stop ≤ cmd.length) :
    ∀ (k i : Nat) (argv : List Str), i + k = stop →
      argvLoop cmd i stop argv =
        .ok (argv ++ ((cmd.drop i).take k).filter fun a => decide (a ≠ "-gmodules".toList)) := by
  intro k
  induction k with
  | zero =>
    intro i argv h
    have hi : i = stop := by omega
    rw [argvLoop, if_pos hi]
    simp only [List.take_zero, List.filter_nil, List.append_nil]
  | succ k ih =>
    intro i argv h
    rw [argvLoop]
    have hne : i ≠ stop := by omega
    have hi : i < cmd.length := by omega
    rw [if_neg hne]
    split
    · rename_i h0
      rw [List.getElem?_eq_none_iff] at h0; omega
    · rename_i arg h0
      rw [ih (i + 1) _ (by omega)]
      have : cmd.drop i = arg :: cmd.drop (i + 1) := by
        rw [List.getElem?_eq_some_iff] at h0
        obtain ⟨_, rfl⟩ := h0
        exact List.drop_eq_getElem_cons hi
      rw [this, List.take_succ_cons, List.filter_cons]
      generalize "-gmodules".toList = g
      by_cases e : arg = g
      · simp [e]
      · simp [e]

theorem argvLoop_ub (cmd : List Str) (stop : Nat) :
    ∀ (k i : Nat) (argv : List Str), cmd.length - i = k → stop < i →
      argvLoop cmd i stop argv = .ub := by
  intro k
  induction k with
  | zero =>
    intro i argv h hs
    rw [argvLoop, if_neg (by omega)]
    split
    · rfl
    · rename_i arg h0
      have := (List.getElem?_eq_some_iff.1 h0).1
      omega
  | succ k ih =>
    intro i argv h hs
    rw [argvLoop, if_neg (by omega)]
    split
    · rfl
    · exact ih (i + 1) _ (by omega) (by omega)

/-! ## Diagnostics -/

theorem handleDiagnostic_eq (checker : Bool) (c : ResultCollector) (d : Diagnostic) :
    handleDiagnostic checker c d =
      if checker then c.addCheckerBug (diagnosticEntry d)
      else if d.level = .warning then c.addWarning (diagnosticEntry d)
      else if d.level = .error ∨ d.level = .fatal then c.addError (diagnosticEntry d)
      else c := by
  have hv : diagnosticEntry d =
      { rule := none, path := (populateSourceLocation d).filename,
        startLine := (populateSourceLocation d).line,
        startColumn := (populateSourceLocation d).column,
        endLine := 0, endColumn := 0, message := d.message } := by
    cases h : d.hasSourceManager <;>
      simp [diagnosticEntry, populateSourceLocation, emptySourceLocation, h, List.isEmpty_iff]
  rw [hv]
  cases checker <;> cases h : d.level <;> simp [handleDiagnostic, h]

/-! ## Analysis commutes with compilation -/

variable {U σ : Type}

theorem handleDiagnostic_add (checker : Bool) (c : ResultCollector) (d : Diagnostic)
    (s : ViolationSet) :
    handleDiagnostic checker (c.add s) d = (handleDiagnostic checker c d).add s := by
  simp only [handleDiagnostic_eq]
  split
  · rfl
  · split
    · rfl
    · split <;> rfl

theorem foldl_handleDiagnostic_add (checker : Bool) (ds : List Diagnostic) (c : ResultCollector)
    (s : ViolationSet) :
    ds.foldl (handleDiagnostic checker) (c.add s) = (ds.foldl (handleDiagnostic checker) c).add s := by
  induction ds generalizing c with
  | nil => rfl
  | cons d t ih => simp only [List.foldl_cons, handleDiagnostic_add, ih]

/-- A state after the rules have looked at a unit. -/
def absorb (st : DriverState σ) (r : σ × ViolationSet) : DriverState σ :=
  { st with rules := r.1, collector := st.collector.add r.2 }

theorem analyze_cons (a : Analyzer U σ) (u : U) (us : List U) (st : DriverState σ) :
    analyze a (u :: us) st =
      (do let r ← takeoffAll a u a.filteredRules st.rules []; analyze a us (absorb st r)) := rfl

theorem bind_eq_ok {α β : Type} {x : Outcome α} {f : α → Outcome β} {b : β} :
    (x >>= f) = .ok b ↔ ∃ v, x = .ok v ∧ f v = .ok b := by
  cases x <;> simp

theorem enterDirectory_absorb (tc : Toolchain U) (st : DriverState σ) (x : σ × ViolationSet)
    (dir : Str) :
    enterDirectory tc (absorb st x) dir =
      (do let st' ← enterDirectory tc st dir; pure (absorb st' x)) := by
  unfold enterDirectory
  split
  · rfl
  · simp only [absorb]
    split <;> simp

theorem compileJob_absorb (tc : Toolchain U) (exe : Str) (checker : Bool)
    (st : DriverState σ) (x : σ × ViolationSet) (job : Str × CompileCommand) :
    compileJob tc exe checker (absorb st x) job =
      (do let r ← compileJob tc exe checker st job; pure (absorb r.1 x, r.2)) := by
  unfold compileJob
  simp only [enterDirectory_absorb]
  cases h1 : enterDirectory tc st job.2.directory with
  | throws w => simp
  | ub => simp
  | ok st' =>
    simp only [Outcome.bind_ok, Outcome.pure_eq]
    cases h2 : buildArgv exe (tc.adjust job.2.commandLine job.1) checker with
    | throws w => simp
    | ub => simp
    | ok argv =>
      simp only [Outcome.bind_ok]
      have : (absorb st' x).cwd = st'.cwd := rfl
      rw [this]
      cases h3 : getCC1Arguments (tc.build st'.cwd argv) with
      | throws w => simp
      | ub => simp
      | ok cc1 =>
        simp [absorb, foldl_handleDiagnostic_add]

theorem compileJob_rules {tc : Toolchain U} {exe : Str} {checker : Bool} {st : DriverState σ}
    {job : Str × CompileCommand} {r : DriverState σ × Option U}
    (h : compileJob tc exe checker st job = .ok r) : r.1.rules = st.rules := by
  unfold compileJob at h
  cases h1 : enterDirectory tc st job.2.directory with
  | throws w => simp [h1] at h
  | ub => simp [h1] at h
  | ok st' =>
    have hc : st'.rules = st.rules := by
      unfold enterDirectory at h1
      split at h1
      · simp at h1
      · split at h1
        · simp at h1
        · simp only [Outcome.ok.injEq] at h1; rw [← h1]
    cases h2 : buildArgv exe (tc.adjust job.2.commandLine job.1) checker with
    | throws w => simp [h1, h2] at h
    | ub => simp [h1, h2] at h
    | ok argv =>
      cases h3 : getCC1Arguments (tc.build st'.cwd argv) with
      | throws w => simp [h1, h2, h3] at h
      | ub => simp [h1, h2, h3] at h
      | ok cc1 =>
        simp only [h1, h2, h3, Outcome.bind_ok, Outcome.pure_eq, Outcome.ok.injEq] at h
        rw [← h]
        exact hc

/-- Analysing before or after compiling a further job. -/
theorem compileJob_analyze (tc : Toolchain U) (exe : Str) (checker : Bool) (a : Analyzer U σ)
    (us : List U) (st st' : DriverState σ) (job : Str × CompileCommand) (o : Option U) :
    (∃ st1, analyze a us st = .ok st1 ∧ compileJob tc exe checker st1 job = .ok (st', o)) ↔
      ∃ st1, compileJob tc exe checker st job = .ok (st1, o) ∧ analyze a us st1 = .ok st' := by
  induction us generalizing st with
  | nil =>
    simp only [analyze, Outcome.ok.injEq]
    constructor
    · rintro ⟨_, rfl, h⟩; exact ⟨_, h, rfl⟩
    · rintro ⟨_, h, rfl⟩; exact ⟨_, rfl, h⟩
  | cons u t ih =>
    simp only [analyze_cons, bind_eq_ok]
    constructor
    · rintro ⟨st1, ⟨x, hx, h1⟩, h2⟩
      obtain ⟨st2, h3, h4⟩ := (ih _).1 ⟨st1, h1, h2⟩
      rw [compileJob_absorb, bind_eq_ok] at h3
      obtain ⟨r, h5, h6⟩ := h3
      cases h6
      exact ⟨r.1, h5, x, by rw [compileJob_rules h5]; exact hx, h4⟩
    · rintro ⟨st1, h1, x, hx, h2⟩
      have h3 : compileJob tc exe checker (absorb st x) job = .ok (absorb st1 x, o) := by
        rw [compileJob_absorb, h1]; rfl
      obtain ⟨st2, h4, h5⟩ := (ih _).2 ⟨_, h3, h2⟩
      exact ⟨st2, ⟨x, by rw [← compileJob_rules h1]; exact hx, h4⟩, h5⟩

theorem analyze_append (a : Analyzer U σ) (us vs : List U) (st : DriverState σ) :
    analyze a (us ++ vs) st = (do let st1 ← analyze a us st; analyze a vs st1) := by
  induction us generalizing st with
  | nil => rfl
  | cons u t ih =>
    rw [List.cons_append, analyze_cons, analyze_cons, bind_assoc]
    simp only [ih]

theorem invoke_iff_invokeEach_aux (tc : Toolchain U) (exe : Str) (a : Analyzer U σ)
    (jobs : List (Str × CompileCommand)) (st st' : DriverState σ) (units : List U) :
    (∃ r, constructCompilers tc exe st units jobs = .ok r ∧ analyze a r.2 r.1 = .ok st') ↔
      ∃ st1, analyze a units st = .ok st1 ∧ invokeEach tc exe a st1 jobs = .ok st' := by
  induction jobs generalizing st units with
  | nil =>
    simp only [constructCompilers, invokeEach, Outcome.ok.injEq]
    constructor
    · rintro ⟨_, rfl, h⟩; exact ⟨_, h, rfl⟩
    · rintro ⟨_, h, rfl⟩; exact ⟨_, rfl, h⟩
  | cons job jobs ih =>
    have hl : (∃ r, constructCompilers tc exe st units (job :: jobs) = .ok r ∧
        analyze a r.2 r.1 = .ok st') ↔ ∃ x, compileJob tc exe false st job = .ok x ∧
        ∃ r, constructCompilers tc exe x.1 (units ++ x.2.toList) jobs = .ok r ∧
          analyze a r.2 r.1 = .ok st' := by
      simp only [constructCompilers, bind_eq_ok]
      constructor
      · rintro ⟨r, ⟨x, hx, h1⟩, h2⟩
        refine ⟨x, hx, r, ?_, h2⟩
        cases h : x.2 with
        | none => rw [h] at h1; simpa using h1
        | some u => rw [h] at h1; simpa using h1
      · rintro ⟨x, hx, r, h1, h2⟩
        refine ⟨r, ⟨x, hx, ?_⟩, h2⟩
        cases h : x.2 with
        | none => rw [h] at h1; simpa using h1
        | some u => rw [h] at h1; simpa using h1
    have hone : ∀ st1 st2, invoke tc exe a st1 [job] = .ok st2 ↔
        ∃ x, compileJob tc exe false st1 job = .ok x ∧ analyze a x.2.toList x.1 = .ok st2 := by
      intro st1 st2
      simp only [invoke, constructCompilers, bind_eq_ok]
      constructor
      · rintro ⟨r, ⟨x, hx, h1⟩, h2⟩
        refine ⟨x, hx, ?_⟩
        cases h : x.2 with
        | none => rw [h] at h1; cases h1; exact h2
        | some u => rw [h] at h1; cases h1; exact h2
      · rintro ⟨x, hx, h2⟩
        refine ⟨(x.1, x.2.toList), ⟨x, hx, ?_⟩, h2⟩
        cases h : x.2 <;> rfl
    rw [hl]
    simp only [ih, invokeEach, bind_eq_ok, hone, analyze_append]
    constructor
    · rintro ⟨⟨st0, o⟩, hx, st2, ⟨st1, h1, h2⟩, h3⟩
      obtain ⟨st4, h4, h5⟩ := (compileJob_analyze tc exe false a units st st1 job o).2 ⟨_, hx, h1⟩
      exact ⟨st4, h4, st2, ⟨_, h5, h2⟩, h3⟩
    · rintro ⟨st4, h4, st2, ⟨⟨st1, o⟩, h5, h2⟩, h3⟩
      obtain ⟨st0, hx, h1⟩ := (compileJob_analyze tc exe false a units st st1 job o).1 ⟨_, h4, h5⟩
      exact ⟨(st0, o), hx, st2, ⟨st1, h1, h2⟩, h3⟩

theorem invoke_iff_invokeEach (tc : Toolchain U) (exe : Str) (a : Analyzer U σ)
    (jobs : List (Str × CompileCommand)) (st st' : DriverState σ) :
    invoke tc exe a st jobs = .ok st' ↔ invokeEach tc exe a st jobs = .ok st' := by
  have := invoke_iff_invokeEach_aux tc exe a jobs st st' []
  simp only [analyze, Outcome.ok.injEq] at this
  rw [invoke, bind_eq_ok, this]
  constructor
  · rintro ⟨_, rfl, h⟩; exact h
  · intro h; exact ⟨_, rfl, h⟩

/-- The two modes of a run, if it ends. -/
theorem driverRun_ok_iff {tc : Toolchain U} {exe : Str} {g k : Bool} {a : Analyzer U σ}
    {st st' : DriverState σ} {db : Str → List CompileCommand} {sources : List Str} :
    driverRun tc exe g k a st db sources = .ok st' ↔
      ∃ x, invoke tc exe a st (constructCompileCommands tc.absolutePath db sources) = .ok x ∧
        (if k then invokeClangStaticAnalyzer tc exe x
          (constructCompileCommands tc.absolutePath db sources) else pure x) = .ok st' := by
  unfold driverRun
  cases g
  · simp only [Bool.false_eq_true, if_false, bind_eq_ok, invoke_iff_invokeEach]
  · simp only [if_true, bind_eq_ok]

/-! ## Every collected violation carries a rule -/

/-- All violations found by rules have a rule. -/
def AllRuled (c : ResultCollector) : Prop := ∀ s ∈ c.collection, ∀ v ∈ s, v.rule ≠ none

theorem carrier_fold (set : ViolationSet) (rule : RuleId) (rs : List Report) :
    rs.foldl (fun set v => carrierAddViolation set v.path v.startLine v.startColumn v.endLine
        v.endColumn (some rule) v.message) set =
      set ++ (rs.filter fun r => decide (r.path ≠ [])).map (reportEntry rule) := by
  induction rs generalizing set with
  | nil => simp
  | cons r t ih =>
    rw [List.foldl_cons, ih]
    by_cases h : r.path = []
    · simp [carrierAddViolation, h]
    · simp [carrierAddViolation, h, ViolationSet.addViolation, reportEntry]

theorem takeoffAll_ruled {a : Analyzer U σ} {u : U} {rules : List RuleId} {s : σ}
    {set : ViolationSet} {r : σ × ViolationSet} (hr : takeoffAll a u rules s set = .ok r)
    (h : ∀ v ∈ set, v.rule ≠ none) : ∀ v ∈ r.2, v.rule ≠ none := by
  induction rules generalizing s set with
  | nil => cases hr; exact h
  | cons rule t ih =>
    rw [takeoffAll, bind_eq_ok] at hr
    obtain ⟨x, _, hx⟩ := hr
    refine ih hx ?_
    rw [carrier_fold]
    intro v hv
    rcases List.mem_append.1 hv with hv | hv
    · exact h v hv
    · obtain ⟨x, _, rfl⟩ := List.mem_map.1 hv
      simp [reportEntry]

theorem analyze_ruled {a : Analyzer U σ} {us : List U} {st st' : DriverState σ}
    (ha : analyze a us st = .ok st') (h : AllRuled st.collector) : AllRuled st'.collector := by
  induction us generalizing st with
  | nil => cases ha; exact h
  | cons u t ih =>
    rw [analyze_cons, bind_eq_ok] at ha
    obtain ⟨r, h1, h2⟩ := ha
    refine ih h2 ?_
    intro s hs v hv
    simp only [absorb, ResultCollector.add, List.mem_append, List.mem_singleton] at hs
    rcases hs with hs | hs
    · exact h s hs v hv
    · subst hs; exact takeoffAll_ruled h1 (by simp) v hv

theorem handle_collection (checker : Bool) (ds : List Diagnostic) (c : ResultCollector) :
    (ds.foldl (handleDiagnostic checker) c).collection = c.collection := by
  induction ds generalizing c with
  | nil => rfl
  | cons d t ih =>
    rw [List.foldl_cons, ih, handleDiagnostic_eq]
    split
    · rfl
    · split
      · rfl
      · split <;> rfl

theorem compileJob_collection {tc : Toolchain U} {exe : Str} {checker : Bool} {st : DriverState σ}
    {job : Str × CompileCommand} {r : DriverState σ × Option U}
    (h : compileJob tc exe checker st job = .ok r) :
    r.1.collector.collection = st.collector.collection := by
  unfold compileJob at h
  cases h1 : enterDirectory tc st job.2.directory with
  | throws w => simp [h1] at h
  | ub => simp [h1] at h
  | ok st' =>
    have hc : st'.collector = st.collector := by
      unfold enterDirectory at h1
      split at h1
      · simp at h1
      · split at h1
        · simp at h1
        · simp only [Outcome.ok.injEq] at h1; rw [← h1]
    cases h2 : buildArgv exe (tc.adjust job.2.commandLine job.1) checker with
    | throws w => simp [h1, h2] at h
    | ub => simp [h1, h2] at h
    | ok argv =>
      cases h3 : getCC1Arguments (tc.build st'.cwd argv) with
      | throws w => simp [h1, h2, h3] at h
      | ub => simp [h1, h2, h3] at h
      | ok cc1 =>
        simp only [h1, h2, h3, Outcome.bind_ok, Outcome.pure_eq, Outcome.ok.injEq] at h
        rw [← h]
        simp [handle_collection, hc]

theorem constructCompilers_collection {tc : Toolchain U} {exe : Str}
    {jobs : List (Str × CompileCommand)} {st : DriverState σ} {units : List U}
    {r : DriverState σ × List U} (h : constructCompilers tc exe st units jobs = .ok r) :
    r.1.collector.collection = st.collector.collection := by
  induction jobs generalizing st units with
  | nil => simp only [constructCompilers, Outcome.ok.injEq] at h; rw [← h]
  | cons job jobs ih =>
    simp only [constructCompilers] at h
    cases h1 : compileJob tc exe false st job with
    | throws w => simp [h1] at h
    | ub => simp [h1] at h
    | ok x =>
      rw [h1] at h
      simp only [Outcome.bind_ok] at h
      cases h2 : x.2 with
      | none => rw [h2] at h; rw [ih h, compileJob_collection h1]
      | some u => rw [h2] at h; rw [ih h, compileJob_collection h1]

theorem staticAnalyzer_collection {tc : Toolchain U} {exe : Str}
    {jobs : List (Str × CompileCommand)} {st st' : DriverState σ}
    (h : invokeClangStaticAnalyzer tc exe st jobs = .ok st') :
    st'.collector.collection = st.collector.collection := by
  induction jobs generalizing st with
  | nil => simp only [invokeClangStaticAnalyzer, Outcome.ok.injEq] at h; rw [← h]
  | cons job jobs ih =>
    simp only [invokeClangStaticAnalyzer] at h
    cases h1 : compileJob tc exe true st job with
    | throws w => simp [h1] at h
    | ub => simp [h1] at h
    | ok x =>
      rw [h1] at h
      simp only [Outcome.bind_ok] at h
      rw [ih h, compileJob_collection h1]

theorem invoke_ruled {tc : Toolchain U} {exe : Str} {a : Analyzer U σ}
    {jobs : List (Str × CompileCommand)} {st st' : DriverState σ}
    (h : invoke tc exe a st jobs = .ok st') (hr : AllRuled st.collector) :
    AllRuled st'.collector := by
  rw [invoke, bind_eq_ok] at h
  obtain ⟨x, h1, h2⟩ := h
  refine analyze_ruled h2 ?_
  intro s hs
  rw [constructCompilers_collection h1] at hs
  exact hr s hs

theorem driverRun_ruled {tc : Toolchain U} {exe : Str} {g k : Bool} {a : Analyzer U σ}
    {st st' : DriverState σ} {db : Str → List CompileCommand} {sources : List Str}
    (h : driverRun tc exe g k a st db sources = .ok st') (hr : AllRuled st.collector) :
    AllRuled st'.collector := by
  obtain ⟨x, h1, h2⟩ := driverRun_ok_iff.1 h
  have hx := invoke_ruled h1 hr
  cases k with
  | false => simp at h2; rw [← h2]; exact hx
  | true =>
    simp only [if_true] at h2
    intro s hs
    rw [staticAnalyzer_collection h2] at hs
    exact hx s hs

end Oclint
