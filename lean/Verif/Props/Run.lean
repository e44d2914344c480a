import Verif.Lemmas.Run

/-!
# C92: a whole run of the driver
-/

namespace Oclint
open Spec

variable {U σ : Type}

/-! ## Sequences of jobs -/

theorem jobs_cases (tc : Toolchain U) (exe : Str) (checker : Bool) (jobs : List (Str × CompileCommand))
    (cwd : Str) :
    (∃ rs cwd', CompileAll tc exe checker cwd jobs rs cwd') ∨
      (∃ rs file w, StopsAt tc exe checker cwd jobs rs file w) ∨
      ∃ before job after rs mid, jobs = before ++ job :: after ∧
        CompileAll tc exe checker cwd before rs mid ∧
        ∀ (c : ResultCollector) (s : σ), compileJob tc exe checker ⟨mid, c, s⟩ job = .ub := by
  induction jobs generalizing cwd with
  | nil => exact .inl ⟨[], cwd, .nil cwd⟩
  | cons job jobs ih =>
    rcases job_cases (σ := σ) tc exe checker cwd job with ⟨r, mid, h⟩ | ⟨w, h⟩ | h
    · rcases ih mid with ⟨rs, cwd', h2⟩ | ⟨rs, file, w, h2⟩ | ⟨before, job', after, rs, mid', h2, h3, h4⟩
      · exact .inl ⟨r :: rs, cwd', .cons h h2⟩
      · obtain ⟨before, after, job', w, mid', rs, h2, h3, h4⟩ := h2
        exact .inr (.inl ⟨r :: rs, job'.1, w,
          .mk (job :: before) after job' w mid' (r :: rs) (by rw [h2]; rfl) (.cons h h3) h4⟩)
      · exact .inr (.inr ⟨job :: before, job', after, r :: rs, mid', by rw [h2]; rfl, .cons h h3, h4⟩)
    · exact .inr (.inl ⟨[], job.1, w, .mk [] jobs job w cwd [] rfl (.nil cwd) h⟩)
    · exact .inr (.inr ⟨[], job, jobs, [], cwd, rfl, .nil cwd, h⟩)

/-- The collector after the diagnostics of several jobs. -/
def afterAll (checker : Bool) (c : ResultCollector) (rs : List (CompileResult U)) : ResultCollector :=
  (rs.flatMap (·.diagnostics)).foldl (handleDiagnostic checker) c

theorem afterAll_cons (checker : Bool) (c : ResultCollector) (r : CompileResult U)
    (rs : List (CompileResult U)) :
    afterAll checker c (r :: rs) =
      afterAll checker (r.diagnostics.foldl (handleDiagnostic checker) c) rs := by
  unfold afterAll
  rw [List.flatMap_cons, List.foldl_append]

theorem verdict_lines (on : Bool) (file : Str) (r : CompileResult U) :
    aloud on "Compiling ".toList ++ (aloud on file ++ (aloud on (" ...".toList ++ "\n".toList) ++
      (aloud on (verdict (unitOf r) " - Success".toList " - Failed".toList) ++
        aloud on ([] ++ "\n".toList)))) = aloud on (compileLines file r) := by
  simp only [aloud_append]
  congr 1
  unfold compileLines
  have h1 : " - Success".toList = " - ".toList ++ "Success".toList := rfl
  have h2 : " - Failed".toList = " - ".toList ++ "Failed".toList := rfl
  have h3 : " ...\n - ".toList = " ...".toList ++ ("\n".toList ++ " - ".toList) := rfl
  rw [h1, h2, h3]
  cases unitOf r with
  | some u => simp only [verdict, Option.isSome_some, if_true, List.append_assoc, List.nil_append]
  | none =>
    simp only [verdict, Option.isSome_none, Bool.false_eq_true, if_false, List.append_assoc,
      List.nil_append]

theorem checker_lines (on : Bool) (file : Str) (r : CompileResult U) :
    aloud on "Clang Static Analyzer ".toList ++ (aloud on file ++
      (aloud on (verdict (unitOf r) " - Done".toList " - Finished with Failure".toList) ++
        aloud on ([] ++ "\n".toList))) = aloud on (checkerLine file r) := by
  simp only [aloud_append]
  congr 1
  unfold checkerLine
  have h1 : " - Done".toList = " - ".toList ++ "Done".toList := rfl
  have h2 : " - Finished with Failure".toList = " - ".toList ++ "Finished with Failure".toList := rfl
  rw [h1, h2]
  cases unitOf r with
  | some u => simp only [verdict, Option.isSome_some, if_true, List.append_assoc, List.nil_append]
  | none =>
    simp only [verdict, Option.isSome_none, Bool.false_eq_true, if_false, List.append_assoc,
      List.nil_append]

theorem construct_nil (on : Bool) (tc : Toolchain U) (exe : Str) (st : DriverState σ) (units : List U) :
    verboseConstructCompilers on tc exe st units [] = ⟨[], .ok (st, units)⟩ := rfl

/-- Compiling the first jobs of a list. -/
theorem construct_prefix (on : Bool) {tc : Toolchain U} {exe : Str} {cwd mid : Str}
    {before : List (Str × CompileCommand)} {rs : List (CompileResult U)}
    (h : CompileAll tc exe false cwd before rs mid) (after : List (Str × CompileCommand))
    (c : ResultCollector) (s : σ) (units : List U) :
    verboseConstructCompilers on tc exe ⟨cwd, c, s⟩ units (before ++ after) =
      let rest := verboseConstructCompilers on tc exe ⟨mid, afterAll false c rs, s⟩
        (units ++ rs.filterMap unitOf) after
      ⟨aloud on (List.zipWith compileLines (before.map (·.1)) rs).flatten ++ rest.said, rest.result⟩ := by
  induction h generalizing c units with
  | nil cwd =>
    simp only [List.map_nil, List.zipWith_nil_left, List.flatten_nil, aloud_nil, List.nil_append,
      List.filterMap_nil, List.append_nil]
    rfl
  | cons h1 h2 ih =>
    rename_i cwd mid cwd' job jobs r rs
    rw [List.cons_append, verboseConstructCompilers, log_bind, log_bind, logLine_bind,
      compileJob_of_compiles h1, quiet_ok, log_bind, logLine_bind]
    simp only [afterJob]
    rw [ih]
    simp only [List.map_cons, List.zipWith_cons_cons, List.flatten_cons, ← aloud_append,
      ← verdict_lines, afterAll_cons, List.append_assoc]
    have e : units ++ ((unitOf r).toList ++ List.filterMap unitOf rs) =
        units ++ List.filterMap unitOf (r :: rs) := by
      rw [List.filterMap_cons]
      cases unitOf r <;> simp
    rw [e]

/-- Clang's static analyzer on the first jobs of a list. -/
theorem checker_prefix (on : Bool) {tc : Toolchain U} {exe : Str} {cwd mid : Str}
    {before : List (Str × CompileCommand)} {rs : List (CompileResult U)}
    (h : CompileAll tc exe true cwd before rs mid) (after : List (Str × CompileCommand))
    (c : ResultCollector) (s : σ) :
    verboseStaticAnalyzer on tc exe ⟨cwd, c, s⟩ (before ++ after) =
      let rest := verboseStaticAnalyzer on tc exe ⟨mid, afterAll true c rs, s⟩ after
      ⟨aloud on (checkerLines (before.map (·.1)) rs) ++ rest.said, rest.result⟩ := by
  unfold checkerLines
  induction h generalizing c with
  | nil cwd =>
    simp only [List.map_nil, List.zipWith_nil_left, List.flatten_nil, aloud_nil, List.nil_append]
    rfl
  | cons h1 h2 ih =>
    rename_i cwd mid cwd' job jobs r rs
    rw [List.cons_append, verboseStaticAnalyzer, log_bind, log_bind,
      compileJob_of_compiles h1, quiet_ok, log_bind, logLine_bind]
    simp only [afterJob]
    rw [ih]
    simp only [List.map_cons, List.zipWith_cons_cons, List.flatten_cons, ← aloud_append,
      ← checker_lines, afterAll_cons, List.append_assoc]

/-! ## Rules -/

theorem takeoffAll_checked {a : Analyzer U σ} {u : U} {rules : List RuleId} {s s' : σ}
    {found : List Violation} (h : Checked a u s rules found s') (rest : List RuleId)
    (set : ViolationSet) :
    takeoffAll a u (rules ++ rest) s set = takeoffAll a u rest s' (set ++ found) := by
  induction h generalizing set with
  | nil s => simp
  | cons h1 h2 ih =>
    rw [List.cons_append, takeoffAll, h1, Outcome.bind_ok, carrier_fold, ih, List.append_assoc]
    rfl

theorem takeoffAll_checked' {a : Analyzer U σ} {u : U} {rules : List RuleId} {s s' : σ}
    {found : List Violation} (h : Checked a u s rules found s') :
    takeoffAll a u rules s [] = .ok (s', found) := by
  have := takeoffAll_checked h [] []
  rw [List.append_nil] at this
  rw [this]
  rfl

theorem takeoffAll_givesUp {a : Analyzer U σ} {u : U} {rules : List RuleId} {s : σ} {w : Str}
    (h : GivesUp a u s rules w) : takeoffAll a u rules s [] = .throws w := by
  obtain ⟨before, after, rule, found, mid, rfl, h2, h3⟩ := h
  rw [takeoffAll_checked h2, takeoffAll, h3]
  rfl

/-- A unit is looked at by all rules, or one throws, or one has undefined behaviour. -/
theorem rules_cases (a : Analyzer U σ) (u : U) (rules : List RuleId) (s : σ) :
    (∃ found s', Checked a u s rules found s') ∨ (∃ w, GivesUp a u s rules w) ∨
      takeoffAll a u rules s [] = .ub := by
  suffices h : ∀ set, (∃ found s', Checked a u s rules found s') ∨ (∃ w, GivesUp a u s rules w) ∨
      takeoffAll a u rules s set = .ub from h []
  induction rules generalizing s with
  | nil => exact fun _ => .inl ⟨[], s, .nil s⟩
  | cons rule rules ih =>
    intro set
    cases h : a.takeoff rule s u with
    | ub => exact .inr (.inr (by rw [takeoffAll, h]; rfl))
    | throws w => exact .inr (.inl ⟨w, [], rules, rule, [], s, rfl, .nil s, h⟩)
    | ok x =>
      obtain ⟨mid, reports⟩ := x
      rcases ih mid (set ++ kept rule reports) with ⟨found, s', h2⟩ |
        ⟨w, before, after, rule', found, mid', rfl, h3, h4⟩ | h2
      · exact .inl ⟨_, s', .cons h h2⟩
      · exact .inr (.inl ⟨w, rule :: before, after, rule', _, mid', rfl, .cons h h3, h4⟩)
      · refine .inr (.inr ?_)
        rw [takeoffAll, h, Outcome.bind_ok, carrier_fold]
        exact h2

/-- All units are looked at, or a rule throws at one of them, or a rule has undefined behaviour. -/
theorem units_cases (a : Analyzer U σ) (us : List U) (s : σ) :
    (∃ found s', CheckedAll a s us found s') ∨ (∃ before u w, GivesUpAt a s us before u w) ∨
      ∀ cwd c, analyze a us ⟨cwd, c, s⟩ = .ub := by
  induction us generalizing s with
  | nil => exact .inl ⟨[], s, .nil s⟩
  | cons u us ih =>
    rcases rules_cases a u a.filteredRules s with ⟨f, mid, h1⟩ | ⟨w, h1⟩ | h1
    · rcases ih mid with ⟨fs, s', h2⟩ | ⟨before, u', w, after, found, mid', rfl, h3, h4⟩ | h2
      · exact .inl ⟨f :: fs, s', .cons h1 h2⟩
      · exact .inr (.inl ⟨u :: before, u', w, after, f :: found, mid', rfl, .cons h1 h3, h4⟩)
      · refine .inr (.inr fun cwd c => ?_)
        rw [analyze_cons, takeoffAll_checked' h1, Outcome.bind_ok]
        exact h2 _ _
    · exact .inr (.inl ⟨[], u, w, us, [], s, rfl, .nil s, h1⟩)
    · refine .inr (.inr fun cwd c => ?_)
      rw [analyze_cons, h1]
      rfl

/-- The first units of an analysis. -/
theorem analyze_prefix (on : Bool) (mainFile : U → Str) {a : Analyzer U σ} {us : List U} {s s' : σ}
    {found : List (List Violation)} (h : CheckedAll a s us found s') (rest : List U) (cwd : Str)
    (c : ResultCollector) :
    verboseAnalyze on mainFile a (us ++ rest) ⟨cwd, c, s⟩ =
      let r := verboseAnalyze on mainFile a rest
        ⟨cwd, { c with collection := c.collection ++ found }, s'⟩
      ⟨aloud on (us.flatMap (analysisLine mainFile)) ++ r.said, r.result⟩ := by
  induction h generalizing c with
  | nil s =>
    simp only [List.flatMap_nil, aloud_nil, List.nil_append, List.append_nil]
  | cons h1 h2 ih =>
    rename_i s mid s' u us f more
    have hd : " - Done\n".toList = " - Done".toList ++ "\n".toList := rfl
    rw [List.cons_append, verboseAnalyze_cons, log_bind, log_bind, takeoffAll_checked' h1, quiet_ok,
      logLine_bind]
    have e : absorb (⟨cwd, c, s⟩ : DriverState σ) (mid, f) = ⟨cwd, c.add f, mid⟩ := rfl
    rw [e, ih]
    simp only [ResultCollector.add, List.append_assoc, List.singleton_append, List.flatMap_cons,
      ← aloud_append]
    unfold analysisLine
    simp only [hd, ← aloud_append, List.append_assoc]

theorem analyze_checked (on : Bool) (mainFile : U → Str) {a : Analyzer U σ} {us : List U} {s s' : σ}
    {found : List (List Violation)} (h : CheckedAll a s us found s') (cwd : Str)
    (c : ResultCollector) :
    verboseAnalyze on mainFile a us ⟨cwd, c, s⟩ =
      ⟨aloud on (us.flatMap (analysisLine mainFile)),
        .ok ⟨cwd, { c with collection := c.collection ++ found }, s'⟩⟩ := by
  have := analyze_prefix on mainFile h [] cwd c
  rw [List.append_nil] at this
  rw [this]
  simp only [verboseAnalyze, loud_pure, List.append_nil]

/-- An analysis in which a rule throws. -/
theorem analyze_givesUp (on : Bool) (mainFile : U → Str) {a : Analyzer U σ} {us before : List U}
    {u : U} {s : σ} {w : Str} (h : GivesUpAt a s us before u w) (cwd : Str) (c : ResultCollector) :
    verboseAnalyze on mainFile a us ⟨cwd, c, s⟩ =
      ⟨aloud on (before.flatMap (analysisLine mainFile) ++ "Analyzing ".toList ++ mainFile u),
        .throws w⟩ := by
  obtain ⟨after, found, mid, rfl, h2, h3⟩ := h
  rw [analyze_prefix on mainFile h2, verboseAnalyze_cons, log_bind, log_bind, takeoffAll_givesUp h3,
    quiet_throws]
  simp only [List.append_nil, aloud_append, List.append_assoc]

/-! ## The first pass -/

theorem afterAll_collection (checker : Bool) (c : ResultCollector) (f : List (List Violation))
    (rs : List (CompileResult U)) :
    afterAll checker { c with collection := c.collection ++ f } rs =
      { afterAll checker c rs with collection := (afterAll checker c rs).collection ++ f } := by
  unfold afterAll
  cases checker
  · rw [C21_normal_pass, C21_normal_pass]
  · rw [C21_checker_pass, C21_checker_pass]

theorem compiles_unique {tc : Toolchain U} {exe : Str} {checker : Bool} {cwd c1 c2 : Str}
    {job : Str × CompileCommand} {r1 r2 : CompileResult U}
    (h1 : Compiles tc exe checker cwd job r1 c1) (h2 : Compiles tc exe checker cwd job r2 c2) :
    r1 = r2 ∧ c1 = c2 := by
  obtain ⟨d1, _, v1, a1, p1, p2, p3, p4⟩ := h1
  obtain ⟨d2, _, v2, a2, q1, q2, q3, q4⟩ := h2
  have hd := replaced_unique (by decide) p1 q1
  subst hd
  rw [p2] at q2; cases q2
  have hv := clangCall_unique p3 q3
  subst hv
  have h5 := (C22_front_end_job _ _).2 p4
  rw [(C22_front_end_job _ _).2 q4] at h5
  cases h5
  exact ⟨rfl, rfl⟩

theorem compileAll_unique {tc : Toolchain U} {exe : Str} {checker : Bool} {cwd c1 c2 : Str}
    {jobs : List (Str × CompileCommand)} {r1 r2 : List (CompileResult U)}
    (h1 : CompileAll tc exe checker cwd jobs r1 c1) (h2 : CompileAll tc exe checker cwd jobs r2 c2) :
    r1 = r2 ∧ c1 = c2 := by
  induction h1 generalizing r2 c2 with
  | nil => cases h2; exact ⟨rfl, rfl⟩
  | cons h _ ih =>
    cases h2 with
    | cons h' h2 =>
      obtain ⟨e1, e2⟩ := compiles_unique h h'
      subst e1 e2
      obtain ⟨rfl, rfl⟩ := ih h2
      exact ⟨rfl, rfl⟩

/-- Compiling and analysing the first jobs of a list, one by one. -/
theorem each_prefix (on : Bool) (mainFile : U → Str) {tc : Toolchain U} {exe : Str} {a : Analyzer U σ}
    {cwd mid : Str} {before : List (Str × CompileCommand)} {rs : List (CompileResult U)}
    (h : CompileAll tc exe false cwd before rs mid) {s s' : σ} {found : List (List Violation)}
    (hf : CheckedAll a s (rs.filterMap unitOf) found s') (after : List (Str × CompileCommand))
    (c : ResultCollector) :
    verboseInvokeEach on mainFile tc exe a ⟨cwd, c, s⟩ (before ++ after) =
      let rest := verboseInvokeEach on mainFile tc exe a
        ⟨mid, { afterAll false c rs with collection := (afterAll false c rs).collection ++ found }, s'⟩
        after
      ⟨aloud on (separateLines mainFile (before.map (·.1)) rs) ++ rest.said, rest.result⟩ := by
  unfold separateLines
  induction h generalizing c s found with
  | nil cwd =>
    cases hf
    simp only [List.map_nil, List.zipWith_nil_left, List.flatten_nil, aloud_nil, List.nil_append,
      List.append_nil]
    rfl
  | cons h1 h2 ih =>
    rename_i cwd mid cwd' job jobs r rs
    have hone := construct_prefix (σ := σ) on (CompileAll.cons h1 (.nil mid)) [] c s []
    simp only [List.append_nil, List.map_cons, List.map_nil, List.zipWith_cons_cons,
      List.zipWith_nil_left, List.flatten_cons, List.flatten_nil, List.nil_append,
      construct_nil] at hone
    rw [List.cons_append, verboseInvokeEach, verboseInvoke, hone, loud_ok]
    have hu : List.filterMap unitOf [r] = (unitOf r).toList := by
      rw [List.filterMap_cons]; cases unitOf r <;> rfl
    cases hr : unitOf r with
    | none =>
      have hf' : CheckedAll a s (rs.filterMap unitOf) found s' := by
        rw [List.filterMap_cons, hr] at hf; exact hf
      rw [hu, hr]
      simp only [Option.toList_none, verboseAnalyze, loud_pure]
      rw [loud_ok, ih hf']
      simp only [List.map_cons, List.zipWith_cons_cons, List.flatten_cons, ← aloud_append, hr,
        Option.toList_none, List.flatMap_nil, List.append_nil, List.append_assoc]
      rw [afterAll_cons, afterAll_cons]
      rfl
    | some u =>
      rw [List.filterMap_cons, hr] at hf
      cases hf with
      | cons hf1 hf2 =>
        rename_i mid' f rest
        rw [hu, hr]
        have e := analyze_checked on mainFile (CheckedAll.cons hf1 (.nil mid')) mid
          (afterAll false c [r])
        rw [show (some u).toList = [u] from rfl, e]
        simp only [loud_ok]
        rw [ih hf2]
        simp only [List.map_cons, List.zipWith_cons_cons, List.flatten_cons, ← aloud_append, hr,
          Option.toList_some, List.append_assoc, afterAll_collection]
        rw [afterAll_cons false c r rs, show afterAll false c [r] =
          r.diagnostics.foldl (handleDiagnostic false) c by rw [afterAll_cons]; rfl]
        simp only [List.singleton_append]

theorem afterAll_collected (c : ResultCollector) (rs : List (CompileResult U))
    (found : List (List Violation)) :
    ({ afterAll false c rs with collection := (afterAll false c rs).collection ++ found } :
      ResultCollector) = collected c rs [] found := by
  unfold afterAll collected entriesOf
  rw [C21_normal_pass]
  simp only [List.flatMap_nil, List.filter_nil, List.map_nil, List.append_nil]

theorem collected_checker (c : ResultCollector) (rs bugs : List (CompileResult U))
    (found : List (List Violation)) :
    afterAll true (collected c rs [] found) bugs = collected c rs bugs found := by
  unfold afterAll
  rw [C21_checker_pass]
  unfold collected entriesOf
  simp

theorem first_pass (on together : Bool) (mainFile : U → Str) {tc : Toolchain U} {exe : Str}
    {a : Analyzer U σ} {cwd mid : Str} {jobs : List (Str × CompileCommand)}
    {rs : List (CompileResult U)} (h : CompileAll tc exe false cwd jobs rs mid) {s s' : σ}
    {found : List (List Violation)} (hf : CheckedAll a s (rs.filterMap unitOf) found s')
    (c : ResultCollector) :
    verboseBothModes on mainFile tc exe together a ⟨cwd, c, s⟩ jobs =
      ⟨aloud on (passLines mainFile together (jobs.map (·.1)) rs),
        .ok ⟨mid, collected c rs [] found, s'⟩⟩ := by
  unfold verboseBothModes passLines
  cases together with
  | true =>
    simp only [if_true]
    have := construct_prefix (σ := σ) on h [] c s []
    simp only [List.append_nil, verboseConstructCompilers, loud_pure, List.nil_append] at this
    unfold verboseInvoke
    rw [this, loud_ok, analyze_checked on mainFile hf, afterAll_collected]
    simp only [aloud_append]
    rfl
  | false =>
    simp only [Bool.false_eq_true, if_false]
    have := each_prefix on mainFile h hf [] c
    simp only [List.append_nil, verboseInvokeEach, loud_pure, afterAll_collected] at this
    exact this

theorem zipWith_map_append {α β γ : Type} (f : α → β → γ) (a b : List α) (l : List β)
    (h : a.length = l.length) : List.zipWith f (a ++ b) l = List.zipWith f a l := by
  induction a generalizing l with
  | nil => cases l with
    | nil => simp
    | cons x l => simp at h
  | cons x a ih => cases l with
    | nil => simp at h
    | cons y l => simp only [List.cons_append, List.zipWith_cons_cons, ih l (by simpa using h)]

theorem compileAll_length {tc : Toolchain U} {exe : Str} {checker : Bool} {cwd cwd' : Str}
    {jobs : List (Str × CompileCommand)} {rs : List (CompileResult U)}
    (h : CompileAll tc exe checker cwd jobs rs cwd') : jobs.length = rs.length := by
  induction h with
  | nil => rfl
  | cons _ _ ih => simp [ih]

theorem first_pass_stops (on together : Bool) (mainFile : U → Str) {tc : Toolchain U} {exe : Str}
    (a : Analyzer U σ) {cwd file w : Str} {jobs : List (Str × CompileCommand)}
    {rs : List (CompileResult U)} (h : StopsAt tc exe false cwd jobs rs file w) (s : σ)
    (hf : together = false → ∃ found s', CheckedAll a s (rs.filterMap unitOf) found s')
    (c : ResultCollector) :
    verboseBothModes on mainFile tc exe together a ⟨cwd, c, s⟩ jobs =
      ⟨aloud on (stoppedLines mainFile together (jobs.map (·.1)) rs file), .throws w⟩ := by
  obtain ⟨before, after, job, w, mid, rs, rfl, h2, h3⟩ := h
  have hl : (before.map (·.1)).length = rs.length := by
    rw [List.length_map]; exact compileAll_length h2
  have hz : (before ++ job :: after).map (·.1) = before.map (·.1) ++ (job :: after).map (·.1) :=
    List.map_append
  have h4 : " ...\n".toList = " ...".toList ++ "\n".toList := rfl
  unfold verboseBothModes stoppedLines
  cases together with
  | true =>
    simp only [if_true]
    unfold verboseInvoke
    rw [construct_prefix on h2, verboseConstructCompilers, log_bind, log_bind, logLine_bind,
      compileJob_of_stops h3, quiet_throws, hz, zipWith_map_append _ _ _ _ hl, h4]
    simp only [loud_throws, List.append_nil, aloud_append, List.append_assoc]
  | false =>
    simp only [Bool.false_eq_true, if_false]
    obtain ⟨found, s', hf⟩ := hf rfl
    unfold separateLines
    rw [each_prefix on mainFile h2 hf, verboseInvokeEach, verboseInvoke, verboseConstructCompilers,
      log_bind, log_bind, logLine_bind, compileJob_of_stops h3, quiet_throws, hz,
      zipWith_map_append _ _ _ _ hl, h4]
    simp only [loud_throws, List.append_nil, aloud_append, List.append_assoc, separateLines]

/-- Compiling and analysing one job. -/
theorem invoke_one (on : Bool) (mainFile : U → Str) {tc : Toolchain U} {exe : Str}
    (a : Analyzer U σ) {cwd mid : Str} {job : Str × CompileCommand} {r : CompileResult U}
    (h : Compiles tc exe false cwd job r mid) (s : σ) (c : ResultCollector) :
    verboseInvoke on mainFile tc exe a ⟨cwd, c, s⟩ [job] =
      let rest := verboseAnalyze on mainFile a (unitOf r).toList ⟨mid, afterAll false c [r], s⟩
      ⟨aloud on (compileLines job.1 r) ++ rest.said, rest.result⟩ := by
  have hone := construct_prefix (σ := σ) on (CompileAll.cons h (.nil mid)) [] c s []
  simp only [List.append_nil, List.map_cons, List.map_nil, List.zipWith_cons_cons,
    List.zipWith_nil_left, List.flatten_cons, List.flatten_nil, List.nil_append,
    construct_nil] at hone
  have hu : List.filterMap unitOf [r] = (unitOf r).toList := by
    rw [List.filterMap_cons]; cases unitOf r <;> rfl
  rw [verboseInvoke, hone, loud_ok, hu]

/-- All jobs are compiled, then a rule throws. -/
theorem first_pass_later (on : Bool) (mainFile : U → Str) {tc : Toolchain U} {exe : Str}
    {a : Analyzer U σ} {cwd mid w : Str} {jobs : List (Str × CompileCommand)}
    {rs : List (CompileResult U)} (h : CompileAll tc exe false cwd jobs rs mid) {s : σ}
    {before : List U} {u : U} (hf : GivesUpAt a s (rs.filterMap unitOf) before u w)
    (c : ResultCollector) :
    verboseBothModes on mainFile tc exe true a ⟨cwd, c, s⟩ jobs =
      ⟨aloud on ((List.zipWith compileLines (jobs.map (·.1)) rs).flatten ++
          before.flatMap (analysisLine mainFile) ++ "Analyzing ".toList ++ mainFile u),
        .throws w⟩ := by
  unfold verboseBothModes
  simp only [if_true]
  have := construct_prefix (σ := σ) on h [] c s []
  simp only [List.append_nil, verboseConstructCompilers, loud_pure, List.nil_append] at this
  unfold verboseInvoke
  rw [this, loud_ok, analyze_givesUp on mainFile hf]
  simp only [aloud_append, List.append_assoc]

/-- A rule throws at the unit of a job. -/
theorem first_pass_now (on : Bool) (mainFile : U → Str) {tc : Toolchain U} {exe : Str}
    {a : Analyzer U σ} {cwd mid mid' w : Str} {before : List (Str × CompileCommand)}
    {job : Str × CompileCommand} {rs : List (CompileResult U)} {s s' : σ}
    {found : List (List Violation)} {r : CompileResult U} {u : U}
    (h1 : CompileAll tc exe false cwd before rs mid)
    (h2 : CheckedAll a s (rs.filterMap unitOf) found s') (h3 : Compiles tc exe false mid job r mid')
    (h4 : unitOf r = some u) (h5 : GivesUp a u s' a.filteredRules w)
    (after : List (Str × CompileCommand)) (c : ResultCollector) :
    verboseBothModes on mainFile tc exe false a ⟨cwd, c, s⟩ (before ++ job :: after) =
      ⟨aloud on (separateLines mainFile (before.map (·.1)) rs ++ compileLines job.1 r ++
          "Analyzing ".toList ++ mainFile u), .throws w⟩ := by
  unfold verboseBothModes
  simp only [Bool.false_eq_true, if_false]
  rw [each_prefix on mainFile h1 h2, verboseInvokeEach, invoke_one on mainFile a h3, h4]
  have hg : GivesUpAt a s' (some u).toList [] u w := ⟨[], [], s', rfl, .nil s', h5⟩
  rw [analyze_givesUp on mainFile hg, loud_throws]
  simp only [aloud_append, List.append_assoc, List.flatMap_nil, List.nil_append]

/-- The ways the jobs can go one by one. -/
theorem each_cases (tc : Toolchain U) (exe : Str) (a : Analyzer U σ)
    (jobs : List (Str × CompileCommand)) (cwd : Str) (s : σ) :
    (∃ rs mid found s', CompileAll tc exe false cwd jobs rs mid ∧
        CheckedAll a s (rs.filterMap unitOf) found s') ∨
      (∃ rs file w found s', StopsAt tc exe false cwd jobs rs file w ∧
        CheckedAll a s (rs.filterMap unitOf) found s') ∨
      (∃ before job after rs mid found s' r mid' u w, jobs = before ++ job :: after ∧
        CompileAll tc exe false cwd before rs mid ∧
        CheckedAll a s (rs.filterMap unitOf) found s' ∧ Compiles tc exe false mid job r mid' ∧
        unitOf r = some u ∧ GivesUp a u s' a.filteredRules w) ∨
      ∀ c, invokeEach tc exe a ⟨cwd, c, s⟩ jobs = .ub := by
  induction jobs generalizing cwd s with
  | nil => exact .inl ⟨[], cwd, [], s, .nil cwd, .nil s⟩
  | cons job jobs ih =>
    rcases job_cases (σ := σ) tc exe false cwd job with ⟨r, mid, h⟩ | ⟨w, h⟩ | h
    · have hone : ∀ c, invoke tc exe a ⟨cwd, c, s⟩ [job] =
          analyze a (unitOf r).toList ⟨mid, afterAll false c [r], s⟩ := by
        intro c
        have := congrArg Loud.result (invoke_one false (fun _ => []) a h s c)
        rw [verboseInvoke_result] at this
        rw [this]
        exact verboseAnalyze_result _ _ _ _ _
      have key : (∃ f s1, CheckedAll a s (unitOf r).toList f s1) ∨
          (∃ u w, unitOf r = some u ∧ GivesUp a u s a.filteredRules w) ∨
          ∀ cwd c, analyze a (unitOf r).toList ⟨cwd, c, s⟩ = .ub := by
        rcases units_cases a (unitOf r).toList s with h1 |
          ⟨before, u, w, after, found, mid', h2, h3, h4⟩ | h1
        · exact .inl h1
        · right; left
          cases hu : unitOf r with
          | none => rw [hu] at h2; simp at h2
          | some u' =>
            rw [hu] at h2
            have hb : before = [] := by
              cases before with
              | nil => rfl
              | cons b bs => simp at h2
            subst hb
            simp at h2
            cases h3
            exact ⟨u', w, rfl, h2.1 ▸ h4⟩
        · exact .inr (.inr h1)
      have hfm : ∀ rs, List.filterMap unitOf (r :: rs) =
          (unitOf r).toList ++ List.filterMap unitOf rs := by
        intro rs
        rw [List.filterMap_cons]
        cases unitOf r <;> rfl
      have happ : ∀ {us vs : List U} {f g : List (List Violation)} {s s1 s2 : σ},
          CheckedAll a s us f s1 → CheckedAll a s1 vs g s2 → CheckedAll a s (us ++ vs) (f ++ g) s2 := by
        intro us vs f g s s1 s2 p q
        induction p with
        | nil => exact q
        | cons p1 _ ihp => exact .cons p1 (ihp q)
      rcases key with ⟨f, s1, hk⟩ | ⟨u, w, hu, hg⟩ | hk
      · rcases ih mid s1 with ⟨rs, mid', found, s', h1, h2⟩ | ⟨rs, file, w, found, s', h1, h2⟩ |
          ⟨before, job', after, rs, mid', found, s', r', mid'', u, w, rfl, h1, h2, h3, h4, h5⟩ | h1
        · exact .inl ⟨r :: rs, mid', f ++ found, s', .cons h h1, by rw [hfm]; exact happ hk h2⟩
        · obtain ⟨before, after, job', w, mid', rs, h3, h4, h5⟩ := h1
          exact .inr (.inl ⟨r :: rs, job'.1, w, f ++ found, s',
            .mk (job :: before) after job' w mid' (r :: rs) (by rw [h3]; rfl) (.cons h h4) h5,
            by rw [hfm]; exact happ hk h2⟩)
        · exact .inr (.inr (.inl ⟨job :: before, job', after, r :: rs, mid', f ++ found, s', r', mid'',
            u, w, rfl, .cons h h1, by rw [hfm]; exact happ hk h2, h3, h4, h5⟩))
        · refine .inr (.inr (.inr fun c => ?_))
          have e := congrArg Loud.result
            (analyze_checked false (fun _ => []) hk mid (afterAll false c [r]))
          rw [verboseAnalyze_result] at e
          rw [invokeEach, hone, e, Outcome.bind_ok]
          exact h1 _
      · exact .inr (.inr (.inl ⟨[], job, jobs, [], cwd, [], s, r, mid, u, w, rfl, .nil cwd, .nil s, h,
          hu, hg⟩))
      · refine .inr (.inr (.inr fun c => ?_))
        rw [invokeEach, hone, hk]
        rfl
    · exact .inr (.inl ⟨[], job.1, w, [], s, .mk [] jobs job w cwd [] rfl (.nil cwd) h, .nil s⟩)
    · refine .inr (.inr (.inr fun c => ?_))
      rw [invokeEach, invoke, constructCompilers, h]
      rfl

theorem checker_stops (on : Bool) {tc : Toolchain U} {exe : Str}
    {cwd file w : Str} {jobs : List (Str × CompileCommand)}
    {rs : List (CompileResult U)} (h : StopsAt tc exe true cwd jobs rs file w) (s : σ)
    (c : ResultCollector) :
    verboseStaticAnalyzer on tc exe ⟨cwd, c, s⟩ jobs =
      ⟨aloud on (checkerLines (jobs.map (·.1)) rs ++ "Clang Static Analyzer ".toList ++ file),
        .throws w⟩ := by
  obtain ⟨before, after, job, w, mid, rs, rfl, h2, h3⟩ := h
  have hl : (before.map (·.1)).length = rs.length := by
    rw [List.length_map]; exact compileAll_length h2
  have hz : (before ++ job :: after).map (·.1) = before.map (·.1) ++ (job :: after).map (·.1) :=
    List.map_append
  unfold checkerLines
  rw [checker_prefix on h2, verboseStaticAnalyzer, log_bind, log_bind, compileJob_of_stops h3,
    quiet_throws, hz, zipWith_map_append _ _ _ _ hl]
  simp only [List.append_nil, aloud_append, List.append_assoc, checkerLines]

/-! ## The whole run -/

/-- Everything after the list of jobs. -/
def loudRun (on : Bool) (mainFile : U → Str) (tc : Toolchain U) (exe : Str) (together checker : Bool)
    (a : Analyzer U σ) (st : DriverState σ) (jobs : List (Str × CompileCommand)) :
    Loud (DriverState σ) := do
  let st ← verboseBothModes on mainFile tc exe together a st jobs
  verboseChecker on tc exe checker st jobs

theorem verboseRun_eq (on : Bool) (mainFile : U → Str) (tc : Toolchain U) (exe : Str)
    (together checker : Bool) (a : Analyzer U σ) (st : DriverState σ) (db : Str → List CompileCommand)
    (sources : List Str) :
    verboseRun on mainFile tc exe together checker a st db sources =
      (skipLines tc db sources, loudRun on mainFile tc exe together checker a st (jobsOf tc db sources)) := by
  unfold verboseRun loudRun
  simp only [commands_eq, C19_compile_jobs]
  rfl

theorem loudRun_completes (on : Bool) (mainFile : U → Str) {tc : Toolchain U} {exe : Str}
    (together : Bool) {checker : Bool} {a : Analyzer U σ} {st st' : DriverState σ}
    {jobs : List (Str × CompileCommand)} {rs bugs : List (CompileResult U)}
    (h : Completes tc exe checker a st jobs rs bugs st') :
    loudRun on mainFile tc exe together checker a st jobs =
      ⟨aloud on (runLines mainFile together (jobs.map (·.1)) rs bugs), .ok st'⟩ := by
  obtain ⟨cwd, c, s⟩ := st
  unfold loudRun verboseChecker runLines
  cases h with
  | plain h1 h2 h3 =>
    rw [first_pass on together mainFile h2 h3, loud_ok, h1]
    simp only [Bool.false_eq_true, if_false, loud_pure, List.append_nil, checkerLines,
      List.zipWith_nil_right, List.flatten_nil]
  | checked h1 h2 h3 h4 =>
    rw [first_pass on together mainFile h2 h3, loud_ok, h1]
    simp only [if_true]
    rename_i found mid cwd' s'
    have := checker_prefix on h4 [] (collected c rs [] found) s'
    rw [List.append_nil] at this
    rw [this]
    simp only [verboseStaticAnalyzer, loud_pure, List.append_nil, aloud_append, collected_checker]

theorem loudRun_stops (on : Bool) {mainFile : U → Str} {tc : Toolchain U} {exe : Str}
    {together checker : Bool} {a : Analyzer U σ} {st : DriverState σ}
    {jobs : List (Str × CompileCommand)} {w words : Str}
    (h : RunStops tc exe checker mainFile together a st jobs w words) :
    loudRun on mainFile tc exe together checker a st jobs = ⟨aloud on words, .throws w⟩ := by
  obtain ⟨cwd, c, s⟩ := st
  unfold loudRun verboseChecker
  cases h with
  | compiling h1 h2 => rw [first_pass_stops on together mainFile a h1 s h2, loud_throws]
  | ruleLater h1 h2 h3 => subst h1; rw [first_pass_later on mainFile h2 h3, loud_throws]
  | ruleNow h1 h2 h3 h4 h5 h6 h7 =>
    subst h1 h2
    rw [first_pass_now on mainFile h3 h4 h5 h6 h7, loud_throws]
  | checking h1 h2 hf h3 =>
    rw [first_pass on together mainFile h2 hf, loud_ok, h1]
    simp only [if_true]
    rw [checker_stops on h3]
    simp only [aloud_append, runLines, List.append_assoc]

/-- The ways the first pass can go. -/
theorem pass_cases (mainFile : U → Str) (tc : Toolchain U) (exe : Str)
    (together checker : Bool) (a : Analyzer U σ) (st : DriverState σ)
    (jobs : List (Str × CompileCommand)) :
    (∃ rs mid found s, CompileAll tc exe false st.cwd jobs rs mid ∧
        CheckedAll a st.rules (rs.filterMap unitOf) found s) ∨
      (∃ w words, RunStops tc exe checker mainFile together a st jobs w words) ∨
      ∀ on, (verboseBothModes on mainFile tc exe together a st jobs).result = .ub := by
  obtain ⟨cwd, c, s⟩ := st
  cases together with
  | false =>
    rcases each_cases tc exe a jobs cwd s with ⟨rs, mid, found, s', h1, h2⟩ |
      ⟨rs, file, w, found, s', h1, h2⟩ |
      ⟨before, job, after, rs, mid, found, s', r, mid', u, w, h0, h1, h2, h3, h4, h5⟩ | h
    · exact .inl ⟨rs, mid, found, s', h1, h2⟩
    · exact .inr (.inl ⟨w, _, .compiling h1 fun _ => ⟨found, s', h2⟩⟩)
    · exact .inr (.inl ⟨w, _, .ruleNow rfl h0 h1 h2 h3 h4 h5⟩)
    · refine .inr (.inr fun on => ?_)
      unfold verboseBothModes
      simp only [Bool.false_eq_true, if_false]
      rw [verboseInvokeEach_result]
      exact h c
  | true =>
    rcases jobs_cases (σ := σ) tc exe false jobs cwd with
      ⟨rs, mid, h⟩ | ⟨rs, file, w, h⟩ | ⟨before, job, after, rs, mid, rfl, h2, h3⟩
    · rcases units_cases a (rs.filterMap unitOf) s with ⟨found, s', hf⟩ | ⟨before, u, w, hf⟩ | hf
      · exact .inl ⟨rs, mid, found, s', h, hf⟩
      · exact .inr (.inl ⟨w, _, .ruleLater rfl h hf⟩)
      · refine .inr (.inr fun on => ?_)
        unfold verboseBothModes
        simp only [if_true]
        have := construct_prefix (σ := σ) on h [] c s []
        simp only [List.append_nil, verboseConstructCompilers, loud_pure, List.nil_append] at this
        unfold verboseInvoke
        rw [this, loud_ok]
        exact (verboseAnalyze_result _ _ _ _ _).trans (hf _ _)
    · exact .inr (.inl ⟨w, _, .compiling h fun h => by cases h⟩)
    · refine .inr (.inr fun on => ?_)
      unfold verboseBothModes
      simp only [if_true]
      unfold verboseInvoke
      rw [construct_prefix on h2, verboseConstructCompilers, log_bind, log_bind, logLine_bind, h3,
        quiet_ub]
      rfl

theorem loudRun_cases (mainFile : U → Str) (tc : Toolchain U) (exe : Str)
    (together checker : Bool) (a : Analyzer U σ) (st : DriverState σ)
    (jobs : List (Str × CompileCommand)) :
    (∃ rs bugs st', Completes tc exe checker a st jobs rs bugs st') ∨
      (∃ w words, RunStops tc exe checker mainFile together a st jobs w words) ∨
      ∀ on, (loudRun on mainFile tc exe together checker a st jobs).result = .ub := by
  rcases pass_cases mainFile tc exe together checker a st jobs with ⟨rs, mid, found, s', h, hf⟩ | h | h
  · cases hc : checker with
    | false => exact .inl ⟨_, _, _, .plain rfl h hf⟩
    | true =>
      rcases jobs_cases (σ := σ) tc exe true jobs mid with
        ⟨bugs, cwd', h'⟩ | ⟨bugs, file, w, h'⟩ | ⟨before, job, after, bugs, mid', rfl, h2, h3⟩
      · exact .inl ⟨_, _, _, .checked rfl h hf h'⟩
      · exact .inr (.inl ⟨_, _, .checking rfl h hf h'⟩)
      · right; right
        intro on
        obtain ⟨cwd, c, s⟩ := st
        unfold loudRun verboseChecker
        rw [first_pass on together mainFile h hf, loud_ok]
        simp only [if_true]
        rw [checker_prefix on h2, verboseStaticAnalyzer, log_bind, log_bind, h3, quiet_ub]
  · exact .inr (.inl h)
  · right; right
    intro on
    unfold loudRun
    rw [loud_result, h on]
    rfl

theorem split_loud {α : Type} (x : Str × Loud α) {r : Outcome α} (h : x.2.result = r) :
    x = (x.1, ⟨x.2.said, r⟩) := by
  subst h; rfl

/-! ## C92 -/

variable (tc : Toolchain U) (exe : Str) (together checker : Bool) (a : Analyzer U σ)
  (db : Str → List CompileCommand) (sources : List Str) (on : Bool) (mainFile : U → Str)

/-- What a run writes and collects, if it ends. -/
theorem C92_completes (st st' : DriverState σ) (err words : Str) :
    verboseRun on mainFile tc exe together checker a st db sources = (err, ⟨words, .ok st'⟩) ↔
      err = skipLines tc db sources ∧ ∃ rs bugs,
        Completes tc exe checker a st (jobsOf tc db sources) rs bugs st' ∧
        words = aloud on (runLines mainFile together ((jobsOf tc db sources).map (·.1)) rs bugs) := by
  rw [verboseRun_eq]
  constructor
  · intro h
    obtain ⟨h1, h2⟩ := Prod.mk.inj h
    refine ⟨h1.symm, ?_⟩
    rcases loudRun_cases mainFile tc exe together checker a st (jobsOf tc db sources) with
      ⟨rs, bugs, st1, h3⟩ | ⟨w, words', h3⟩ | h3
    · rw [loudRun_completes on mainFile together h3] at h2
      cases h2
      exact ⟨rs, bugs, h3, rfl⟩
    · rw [loudRun_stops on h3] at h2
      cases h2
    · have := h3 on
      rw [h2] at this
      cases this
  · rintro ⟨rfl, rs, bugs, h3, rfl⟩
    rw [loudRun_completes on mainFile together h3]

/-- What a run writes if it stops, and with which message. -/
theorem C92_stops (st : DriverState σ) (err words w : Str) :
    verboseRun on mainFile tc exe together checker a st db sources = (err, ⟨words, .throws w⟩) ↔
      err = skipLines tc db sources ∧ ∃ words',
        RunStops tc exe checker mainFile together a st (jobsOf tc db sources) w words' ∧
        words = aloud on words' := by
  rw [verboseRun_eq]
  constructor
  · intro h
    obtain ⟨h1, h2⟩ := Prod.mk.inj h
    refine ⟨h1.symm, ?_⟩
    rcases loudRun_cases mainFile tc exe together checker a st (jobsOf tc db sources) with
      ⟨rs, bugs, st1, h3⟩ | ⟨w', words', h3⟩ | h3
    · rw [loudRun_completes on mainFile together h3] at h2
      cases h2
    · rw [loudRun_stops on h3] at h2
      cases h2
      exact ⟨words', h3, rfl⟩
    · have := h3 on
      rw [h2] at this
      cases this
  · rintro ⟨rfl, words', h3, rfl⟩
    rw [loudRun_stops on h3]

/-- What is written does not matter to the result. -/
theorem C92_result (st : DriverState σ) :
    (verboseRun on mainFile tc exe together checker a st db sources).2.result =
      driverRun tc exe together checker a st db sources :=
  verboseRun_result on mainFile tc exe together checker a st db sources

/-- What a run collects, if it ends. -/
theorem C92_collects (st st' : DriverState σ) :
    driverRun tc exe together checker a st db sources = .ok st' ↔
      ∃ rs bugs, Completes tc exe checker a st (jobsOf tc db sources) rs bugs st' := by
  rw [← verboseRun_result false (fun _ => []) tc exe together checker a st db sources]
  have h := C92_completes tc exe together checker a db sources false (fun _ => []) st st'
  constructor
  · intro hr
    obtain ⟨-, rs, bugs, h1, -⟩ := (h _ _).1 (split_loud _ hr)
    exact ⟨rs, bugs, h1⟩
  · rintro ⟨rs, bugs, h1⟩
    rw [(h _ _).2 ⟨rfl, rs, bugs, h1, rfl⟩]

/-- When a run stops. -/
theorem C92_error (st : DriverState σ) (w : Str) :
    driverRun tc exe together checker a st db sources = .throws w ↔
      ∃ words, RunStops tc exe checker mainFile together a st (jobsOf tc db sources) w words := by
  rw [← verboseRun_result false mainFile tc exe together checker a st db sources]
  have h := C92_stops tc exe together checker a db sources false mainFile st
  constructor
  · intro hr
    obtain ⟨-, words, h1, -⟩ := (h _ _ w).1 (split_loud _ hr)
    exact ⟨words, h1⟩
  · rintro ⟨words, h1⟩
    rw [(h _ _ w).2 ⟨rfl, _, h1, rfl⟩]

/-- If no rule throws, a run stops at a job only. -/
theorem C92_error_of_calm_rules (st : DriverState σ) (w : Str)
    (hcalm : ∀ rule ∈ a.filteredRules, ∀ s u, ∃ x, a.takeoff rule s u = .ok x) :
    driverRun tc exe together checker a st db sources = .throws w ↔
      (∃ rs file, StopsAt tc exe false st.cwd (jobsOf tc db sources) rs file w) ∨
      (checker = true ∧ ∃ rs mid bugs file,
        CompileAll tc exe false st.cwd (jobsOf tc db sources) rs mid ∧
        StopsAt tc exe true mid (jobsOf tc db sources) bugs file w) := by
  have hno : ∀ u s w, ¬ GivesUp a u s a.filteredRules w := by
    rintro u s w ⟨before, after, rule, found, mid, h1, h2, h3⟩
    obtain ⟨x, hx⟩ := hcalm rule (by rw [h1]; simp) mid u
    rw [hx] at h3
    cases h3
  have hone : ∀ u s, ∃ found s', Checked a u s a.filteredRules found s' := by
    have h : ∀ (rules : List RuleId) u s, (∀ r ∈ rules, r ∈ a.filteredRules) →
        ∃ found s', Checked a u s rules found s' := by
      intro rules
      induction rules with
      | nil => intro u s _; exact ⟨[], s, .nil s⟩
      | cons rule rules ih =>
        intro u s hm
        obtain ⟨x, hx⟩ := hcalm rule (hm rule (by simp)) s u
        obtain ⟨found, s', h2⟩ := ih u x.1 (fun r hr => hm r (by simp [hr]))
        exact ⟨_, s', .cons hx h2⟩
    exact fun u s => h _ u s (fun _ h => h)
  have hall : ∀ us s, ∃ found s', CheckedAll a s us found s' := by
    intro us
    induction us with
    | nil => intro s; exact ⟨[], s, .nil s⟩
    | cons u us ih =>
      intro s
      obtain ⟨f, mid, h1⟩ := hone u s
      obtain ⟨fs, s', h2⟩ := ih mid
      exact ⟨f :: fs, s', .cons h1 h2⟩
  rw [C92_error tc exe together checker a db sources fun _ => []]
  constructor
  · rintro ⟨words, h1⟩
    cases h1 with
    | compiling h1 => exact .inl ⟨_, _, h1⟩
    | ruleLater _ _ h3 => obtain ⟨_, _, _, _, _, h4⟩ := h3; exact absurd h4 (hno _ _ _)
    | ruleNow _ _ _ _ _ _ h7 => exact absurd h7 (hno _ _ _)
    | checking h1 h2 _ h3 => exact .inr ⟨h1, _, _, _, _, h2, h3⟩
  · rintro (⟨rs, file, h1⟩ | ⟨h1, rs, mid, bugs, file, h2, h3⟩)
    · exact ⟨_, .compiling h1 fun _ => hall _ _⟩
    · obtain ⟨found, s', hf⟩ := hall (rs.filterMap unitOf) st.rules
      exact ⟨_, .checking h1 h2 hf h3⟩

/-- **C20.** If no rule throws, analysing all units together or one after the other has the same
outcome in every case: the same message if it stops. -/
theorem C20_same_outcome (st : DriverState σ)
    (hcalm : ∀ rule ∈ a.filteredRules, ∀ s u, ∃ x, a.takeoff rule s u = .ok x) :
    driverRun tc exe true checker a st db sources = driverRun tc exe false checker a st db sources := by
  cases h : driverRun tc exe true checker a st db sources with
  | ok st' => exact ((C20_global_equals_per_file tc exe checker a st st' db sources).1 h).symm
  | throws w =>
    rw [C92_error_of_calm_rules tc exe true checker a db sources st w hcalm,
      ← C92_error_of_calm_rules tc exe false checker a db sources st w hcalm] at h
    exact h.symm
  | ub =>
    cases h' : driverRun tc exe false checker a st db sources with
    | ok st' => rw [(C20_global_equals_per_file tc exe checker a st st' db sources).2 h'] at h; cases h
    | throws w =>
      rw [C92_error_of_calm_rules tc exe false checker a db sources st w hcalm,
        ← C92_error_of_calm_rules tc exe true checker a db sources st w hcalm, h] at h'
      cases h'
    | ub => rfl

/-- A run ends in one way only. -/
theorem C92_unique (st st1 st2 : DriverState σ) (jobs : List (Str × CompileCommand))
    (r1 r2 b1 b2 : List (CompileResult U)) (h1 : Completes tc exe checker a st jobs r1 b1 st1)
    (h2 : Completes tc exe checker a st jobs r2 b2 st2) : r1 = r2 ∧ b1 = b2 ∧ st1 = st2 := by
  have e1 := loudRun_completes false (fun _ => []) false h1
  rw [loudRun_completes false (fun _ => []) false h2] at e1
  have e2 := (Loud.mk.inj e1).2
  cases h1 with
  | plain p1 p2 p3 =>
    cases h2 with
    | plain q1 q2 q3 =>
      obtain ⟨rfl, rfl⟩ := compileAll_unique p2 q2
      exact ⟨rfl, rfl, (Outcome.ok.inj e2).symm⟩
    | checked q1 => rw [p1] at q1; cases q1
  | checked p1 p2 p3 p4 =>
    cases h2 with
    | plain q1 => rw [p1] at q1; cases q1
    | checked q1 q2 q3 q4 =>
      obtain ⟨rfl, rfl⟩ := compileAll_unique p2 q2
      obtain ⟨rfl, rfl⟩ := compileAll_unique p4 q4
      exact ⟨rfl, rfl, (Outcome.ok.inj e2).symm⟩

/-! ## Examples -/

/-- Units are numbers; `b.c` does not compile, `x.c` has no command, clang's static analyzer fails
on `b.c`. -/
def exToolchain : Toolchain Nat :=
  { absolutePath := fun s => '/' :: s
    chdir := fun _ d => if d = "gone".toList then none else some d
    adjust := fun cmd _ => cmd
    build := fun _ argv => ⟨[⟨true, "clang".toList, argv⟩], [], []⟩
    compile := fun _ argv =>
      if "b.c".toList ∈ argv then ⟨[⟨.error, true, "b.c".toList, false, [], 1, 2, "bad".toList⟩], true, some 0, true, [true]⟩
      else ⟨[], false, some argv.length, true, [true]⟩ }

def exDb (dir file : Str) : List CompileCommand :=
  if file = "/x.c".toList then []
  else [⟨dir, ["cc".toList, file.drop 1, "-fsyntax-only".toList]⟩]

def exAnalyzer : Analyzer Nat Nat :=
  ⟨[7], fun _ s u => .ok (s + 1, [⟨"f".toList, s, u, 0, 0, []⟩, ⟨[], 0, 0, 0, 0, []⟩])⟩

def exSources : List Str := ["a.c".toList, "x.c".toList, "b.c".toList]

/-- Three sources, together, with clang's static analyzer. -/
example : (verboseRun true (fun n => toString n |>.toList) exToolchain "oclint".toList true true exAnalyzer
    ⟨[], .empty, 0⟩ (exDb "d".toList) exSources).1 =
      "Skipping /x.c. Compile command not found.\n".toList := by decide +kernel

example : (verboseRun true (fun _ => "a.c".toList) exToolchain "oclint".toList true true exAnalyzer
    ⟨[], .empty, 0⟩ (exDb "d".toList) exSources).2.said =
      ("Compiling /a.c ...\n - Success\nCompiling /b.c ...\n - Failed\nAnalyzing a.c - Done\n" ++
        "Clang Static Analyzer /a.c - Done\nClang Static Analyzer /b.c - Finished with Failure\n").toList := by
  decide +kernel

/-- The second file cannot be compiled because its directory is missing: alone, the first one is
analysed, together it is not. -/
example : (verboseRun true (fun _ => "a.c".toList) exToolchain "oclint".toList false false exAnalyzer
    ⟨[], .empty, 0⟩ (fun f => if f = "/b.c".toList then exDb "gone".toList f else exDb "d".toList f)
    exSources).2.said =
      "Compiling /a.c ...\n - Success\nAnalyzing a.c - Done\nCompiling /b.c ...\n".toList := by
  decide +kernel

example : (verboseRun true (fun _ => "a.c".toList) exToolchain "oclint".toList true false exAnalyzer
    ⟨[], .empty, 0⟩ (fun f => if f = "/b.c".toList then exDb "gone".toList f else exDb "d".toList f)
    exSources).2.said =
      "Compiling /a.c ...\n - Success\nCompiling /b.c ...\n".toList := by
  decide +kernel

/-- Without `-verbose` nothing is said. -/
example : (verboseRun false (fun _ => "a.c".toList) exToolchain "oclint".toList true true exAnalyzer
    ⟨[], .empty, 0⟩ (exDb "d".toList) exSources).2.said = [] := by decide +kernel

/-- A rule that throws at the second unit. -/
def exThrower : Analyzer Nat Nat :=
  ⟨[7], fun _ s _ => if s = 1 then .throws "stoi".toList else .ok (s + 1, [])⟩

example : (verboseRun true (fun _ => "f".toList) exToolchain "oclint".toList true true exThrower
    ⟨[], .empty, 0⟩ (exDb "d".toList) ["a.c".toList, "c.c".toList, "b.c".toList]).2 =
      ⟨("Compiling /a.c ...\n - Success\nCompiling /c.c ...\n - Success\nCompiling /b.c ...\n" ++
        " - Failed\nAnalyzing f - Done\nAnalyzing f").toList, .throws "stoi".toList⟩ := by
  decide +kernel

example : (verboseRun true (fun _ => "f".toList) exToolchain "oclint".toList false true exThrower
    ⟨[], .empty, 0⟩ (exDb "d".toList) ["a.c".toList, "c.c".toList, "b.c".toList]).2 =
      ⟨("Compiling /a.c ...\n - Success\nAnalyzing f - Done\nCompiling /c.c ...\n - Success\n" ++
        "Analyzing f").toList, .throws "stoi".toList⟩ := by
  decide +kernel

/-- **C20.** With a rule that throws, the two modes can stop with different messages: one by one the
rule is reached first, together the missing directory of a later file. -/
theorem C20_message_witness : ∃ (tc : Toolchain Nat) (a : Analyzer Nat Nat) (st : DriverState Nat)
    (db : Str → List CompileCommand) (sources : List Str) (w w' : Str), w ≠ w' ∧
    driverRun tc [] true false a st db sources = .throws w ∧
    driverRun tc [] false false a st db sources = .throws w' :=
  ⟨exToolchain, exThrower, ⟨[], .empty, 1⟩,
    fun f => if f = "/b.c".toList then exDb "gone".toList f else exDb "d".toList f,
    ["a.c".toList, "b.c".toList],
    "Cannot change dictionary into \"gone\", please make sure the directory exists and you have permission to access!".toList,
    "stoi".toList, by decide +kernel, by decide +kernel, by decide +kernel⟩

end Oclint
