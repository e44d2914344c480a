import Verif.Spec.Lifecycle
import Verif.Lemmas.Run
import Verif.Props.Run

/-!
# Lemmas about the lives of compilers
-/

namespace Oclint
open Spec

variable {U σ : Type}

theorem calm_ok {α β : Type} (a : α) (f : α → Traced β) : (Traced.calm (.ok a) >>= f) = f a := by
  show Traced.mk ([] ++ _) _ = _
  rfl

theorem calm_throws {α β : Type} (w : Str) (f : α → Traced β) :
    (Traced.calm (.throws w) >>= f) = ⟨[], .throws w⟩ := rfl

theorem calm_ub {α β : Type} (f : α → Traced β) : (Traced.calm .ub >>= f) = ⟨[], .ub⟩ := rfl

theorem emit_bind {β : Type} (es : List LifeEvent) (f : Unit → Traced β) :
    (Traced.emit es >>= f) = ⟨es ++ (f ()).events, (f ()).result⟩ := rfl

theorem traced_ok {α β : Type} (es : List LifeEvent) (a : α) (f : α → Traced β) :
    ((⟨es, .ok a⟩ : Traced α) >>= f) = ⟨es ++ (f a).events, (f a).result⟩ := rfl

theorem traced_pure {α : Type} (a : α) : (pure a : Traced α) = ⟨[], .ok a⟩ := rfl

theorem traced_result {α β : Type} (x : Traced α) (f : α → Traced β) :
    (x >>= f).result = x.result >>= fun a => (f a).result := by
  obtain ⟨s, r⟩ := x
  cases r <;> rfl

/-- Code that does not return, after some events. -/
def Halts {α : Type} (x : Traced α) (es : List LifeEvent) : Prop :=
  x.events = es ∧ ∀ v, x.result ≠ .ok v

theorem Halts.bind {α β : Type} {x : Traced α} {es : List LifeEvent} (h : Halts x es)
    (f : α → Traced β) : Halts (x >>= f) es := by
  obtain ⟨e, r⟩ := x
  obtain ⟨rfl, h⟩ := h
  cases r with
  | ok v => exact absurd rfl (h v)
  | throws w => exact ⟨rfl, by intro v hv; cases hv⟩
  | ub => exact ⟨rfl, by intro v hv; cases hv⟩

theorem Halts.after {α β : Type} {es es' : List LifeEvent} {v : α} {f : α → Traced β}
    (h : Halts (f v) es') : Halts ((⟨es, .ok v⟩ : Traced α) >>= f) (es ++ es') := by
  rw [traced_ok]
  exact ⟨by rw [h.1], h.2⟩

theorem halts_mk {α : Type} {x : Traced α} {es : List LifeEvent} (h : Halts x es) (es' : List LifeEvent) :
    Halts (⟨es' ++ x.events, x.result⟩ : Traced α) (es' ++ es) := ⟨by rw [h.1], h.2⟩

/-- The events of an input. -/
def inputEvents (k : Nat) (i : Bool × Nat) : List LifeEvent :=
  .begin k i.2 i.1 :: if i.1 then [.execute k i.2] else []

theorem startLoop_eq (bs : List Bool) (c : Instance) (i : Nat) :
    startLoop c i bs = ⟨(bs.zipIdx i).flatMap (inputEvents c.id),
      .ok ⟨c.id, c.actions ++ ((bs.zipIdx i).filter fun p => p.1).map (·.2)⟩⟩ := by
  induction bs generalizing c i with
  | nil => simp [startLoop, traced_pure]
  | cons b bs ih =>
    rw [startLoop, emit_bind]
    cases b with
    | true =>
      simp only [if_true, emit_bind, ih]
      simp [List.zipIdx_cons, inputEvents]
    | false =>
      simp only [Bool.false_eq_true, if_false, ih]
      simp [List.zipIdx_cons, inputEvents]

/-- A started compiler. -/
def startedInstance (r : CompileResult U) (k : Nat) : Instance :=
  ⟨k, ((inputsOf r).filter fun p => p.1).map (·.2)⟩

theorem startInstance_eq (r : CompileResult U) (k : Nat) :
    startInstance ⟨k, []⟩ r = ⟨(inputsOf r).flatMap (inputEvents k), .ok (startedInstance r k)⟩ := by
  unfold startInstance startedInstance inputsOf
  cases r.hasTarget with
  | false => rfl
  | true => simp [startLoop_eq]

theorem new_start {β : Type} (r : CompileResult U) (k : Nat) (f : Instance → Traced β) :
    (newInstance k >>= fun c => startInstance c r >>= f) =
      ⟨opening r k ++ (f (startedInstance r k)).events, (f (startedInstance r k)).result⟩ := by
  have h : newInstance k = ⟨[.create k], .ok ⟨k, []⟩⟩ := rfl
  rw [h, traced_ok, startInstance_eq, traced_ok]
  simp only [opening, List.cons_append, List.nil_append]
  rfl

theorem end_started {β : Type} (r : CompileResult U) (k : Nat) (f : Unit → Traced β) :
    (endInstance (startedInstance r k) >>= f) = ⟨closing r k ++ (f ()).events, (f ()).result⟩ := by
  have h : endInstance (startedInstance r k) = ⟨closing r k, .ok ()⟩ := by
    unfold endInstance
    rw [emit_bind]
    unfold closing startedInstance Traced.emit
    simp only [List.map_map]
    rfl
  rw [h, traced_ok]

theorem compileJob_raw (tc : Toolchain U) (exe : Str) (checker : Bool) (st : DriverState σ)
    (job : Str × CompileCommand) :
    compileJob tc exe checker st job =
      (compileRaw tc exe checker st.cwd job >>= fun r =>
        pure (afterJob checker st r.1 r.2, unitOf r.1)) := by
  unfold compileJob compileRaw enterDirectory
  cases stringReplace job.2.directory "\\ ".toList " ".toList with
  | none => rfl
  | some dir =>
    simp only
    cases hc : tc.chdir st.cwd dir with
    | none => rfl
    | some cwd =>
      simp only [Outcome.bind_ok]
      cases buildArgv exe (tc.adjust job.2.commandLine job.1) checker with
      | ub => rfl
      | throws w => rfl
      | ok argv =>
        simp only [Outcome.bind_ok]
        cases getCC1Arguments (tc.build cwd argv) with
        | ub => rfl
        | throws w => rfl
        | ok cc1 => simp [unitOf, afterJob]

theorem raw_of_compiles {tc : Toolchain U} {exe : Str} {checker : Bool} {cwd cwd' : Str}
    {job : Str × CompileCommand} {r : CompileResult U} (h : Compiles tc exe checker cwd job r cwd') :
    compileRaw tc exe checker cwd job = .ok (r, cwd') := by
  obtain ⟨dir, _, argv, cc1, h1, h2, h3, h4⟩ := h
  unfold compileRaw enterDirectory
  simp only [(jobDirectory_iff job dir).2 h1, h2, Outcome.bind_ok, (buildArgv_iff _ _ _ _).2 h3,
    (C22_front_end_job _ _).2 h4, Outcome.pure_eq]

theorem raw_not {tc : Toolchain U} {exe : Str} {checker : Bool} {cwd : Str}
    {job : Str × CompileCommand} (h : ¬ ∃ r cwd', Compiles tc exe checker cwd job r cwd') :
    (∃ w, compileRaw tc exe checker cwd job = .throws w) ∨ compileRaw tc exe checker cwd job = .ub := by
  have hraw : ∀ o, compileJob tc exe checker (⟨cwd, .empty, ()⟩ : DriverState Unit) job = o →
      (∃ w, o = .throws w) ∨ o = .ub → (∃ w, compileRaw tc exe checker cwd job = .throws w) ∨
        compileRaw tc exe checker cwd job = .ub := by
    intro o ho hor
    rw [compileJob_raw] at ho
    cases hc : compileRaw tc exe checker cwd job with
    | ok x => rw [hc] at ho; subst ho; rcases hor with ⟨w, hw⟩ | hw <;> cases hw
    | throws w => exact .inl ⟨w, rfl⟩
    | ub => exact .inr rfl
  rcases job_cases (σ := Unit) tc exe checker cwd job with ⟨r, cwd', h1⟩ | ⟨w, h1⟩ | h1
  · exact absurd ⟨r, cwd', h1⟩ h
  · exact hraw _ (compileJob_of_stops h1 _ _) (.inl ⟨w, rfl⟩)
  · exact hraw _ (h1 _ _) (.inr rfl)

/-- A list of jobs is compiled completely or up to a job. -/
theorem jobs_split (tc : Toolchain U) (exe : Str) (checker : Bool) (jobs : List (Str × CompileCommand))
    (cwd : Str) :
    (∃ rs cwd', CompileAll tc exe checker cwd jobs rs cwd') ∨
      ∃ before job after rs mid, jobs = before ++ job :: after ∧
        CompileAll tc exe checker cwd before rs mid ∧
        ¬ ∃ r mid', Compiles tc exe checker mid job r mid' := by
  induction jobs generalizing cwd with
  | nil => exact .inl ⟨[], cwd, .nil cwd⟩
  | cons job jobs ih =>
    by_cases h : ∃ r mid, Compiles tc exe checker cwd job r mid
    · obtain ⟨r, mid, h⟩ := h
      rcases ih mid with ⟨rs, cwd', h2⟩ | ⟨before, job', after, rs, mid', h2, h3, h4⟩
      · exact .inl ⟨r :: rs, cwd', .cons h h2⟩
      · exact .inr ⟨job :: before, job', after, r :: rs, mid', by rw [h2]; rfl, .cons h h3, h4⟩
    · exact .inr ⟨[], job, jobs, [], cwd, rfl, .nil cwd, h⟩

theorem raw_halts {tc : Toolchain U} {exe : Str} {checker : Bool} {cwd : Str}
    {job : Str × CompileCommand} (h : ¬ ∃ r cwd', Compiles tc exe checker cwd job r cwd') :
    Halts (Traced.calm (compileRaw tc exe checker cwd job)) [] := by
  refine ⟨rfl, ?_⟩
  intro v hv
  have hv : compileRaw tc exe checker cwd job = .ok v := hv
  rcases raw_not h with ⟨w, hw⟩ | hw <;> rw [hv] at hw <;> cases hw

/-- The compilers that yield a unit, with their units. -/
def started (ps : List (CompileResult U × Nat)) : List (Instance × U) :=
  ps.filterMap fun p => (unitOf p.1).map fun u => (startedInstance p.1 p.2, u)

/-- The compilers that yield a unit, numbered from `n`. -/
def goodFrom (n : Nat) (rs : List (CompileResult U)) : List (CompileResult U × Nat) :=
  (rs.zipIdx n).filter fun p => (unitOf p.1).isSome

theorem started_filter (ps : List (CompileResult U × Nat)) :
    started (ps.filter fun p => (unitOf p.1).isSome) = started ps := by
  induction ps with
  | nil => rfl
  | cons p ps ih =>
    unfold started at ih ⊢
    rw [List.filter_cons, List.filterMap_cons, ← ih]
    cases h : unitOf p.1 with
    | none => simp
    | some u => simp [h]

theorem good_some {n : Nat} {rs : List (CompileResult U)} {p : CompileResult U × Nat}
    (h : p ∈ goodFrom n rs) : (unitOf p.1).isSome := (List.mem_filter.1 h).2

theorem units_good (n : Nat) (rs : List (CompileResult U)) :
    ((goodFrom n rs).filterMap fun p => unitOf p.1) = rs.filterMap unitOf := by
  unfold goodFrom
  induction rs generalizing n with
  | nil => rfl
  | cons r rs ih =>
    rw [List.zipIdx_cons, List.filter_cons, List.filterMap_cons, ← ih (n + 1)]
    cases h : unitOf r with
    | none => simp
    | some u => simp [h]

theorem trace_construct {tc : Toolchain U} {exe : Str} {cwd mid : Str}
    {before : List (Str × CompileCommand)} {rs : List (CompileResult U)}
    (h : CompileAll tc exe false cwd before rs mid) (after : List (Str × CompileCommand)) (n : Nat)
    (cs : List (Instance × U)) :
    tracedConstruct tc exe n cwd cs (before ++ after) =
      let rest := tracedConstruct tc exe (n + rs.length) mid (cs ++ started (goodFrom n rs)) after
      ⟨((rs.zipIdx n).flatMap fun p => opening p.1 p.2) ++ rest.events, rest.result⟩ := by
  unfold goodFrom
  rw [started_filter]
  induction h generalizing n cs with
  | nil cwd => simp [started]
  | cons h1 h2 ih =>
    rename_i cwd mid cwd' job jobs r rs
    rw [List.cons_append, tracedConstruct, raw_of_compiles h1, calm_ok, new_start]
    have e : n + 1 + rs.length = n + (r :: rs).length := by simp; omega
    have hs : ((succeeded r).map fun u => (startedInstance r n, u)).toList ++
        started (rs.zipIdx (n + 1)) = started ((r :: rs).zipIdx n) := by
      unfold started succeeded unitOf
      rw [List.zipIdx_cons, List.filterMap_cons]
      cases r.errorOccurred <;> cases r.context <;> simp
    rw [ih, List.append_assoc, hs, e]
    simp [List.zipIdx_cons, List.append_assoc]

theorem trace_construct_stops {tc : Toolchain U} {exe : Str} {cwd : Str} {job : Str × CompileCommand}
    (h : ¬ ∃ r cwd', Compiles tc exe false cwd job r cwd') (after : List (Str × CompileCommand))
    (n : Nat) (cs : List (Instance × U)) : Halts (tracedConstruct tc exe n cwd cs (job :: after)) [] := by
  rw [tracedConstruct]
  exact (raw_halts h).bind _

theorem trace_checker {tc : Toolchain U} {exe : Str} {cwd mid : Str}
    {before : List (Str × CompileCommand)} {rs : List (CompileResult U)}
    (h : CompileAll tc exe true cwd before rs mid) (after : List (Str × CompileCommand)) (n : Nat) :
    tracedChecker tc exe n cwd (before ++ after) =
      let rest := tracedChecker tc exe (n + rs.length) mid after
      ⟨checkerTrace n rs ++ rest.events, rest.result⟩ := by
  unfold checkerTrace
  induction h generalizing n with
  | nil cwd => simp
  | cons h1 h2 ih =>
    rename_i cwd mid cwd' job jobs r rs
    rw [List.cons_append, tracedChecker, raw_of_compiles h1, calm_ok, new_start, end_started]
    have e : n + 1 + rs.length = n + (r :: rs).length := by simp; omega
    rw [ih]
    simp [List.zipIdx_cons, e, List.append_assoc]

theorem trace_checker_stops {tc : Toolchain U} {exe : Str} {cwd : Str} {job : Str × CompileCommand}
    (h : ¬ ∃ r cwd', Compiles tc exe true cwd job r cwd') (after : List (Str × CompileCommand))
    (n : Nat) : Halts (tracedChecker tc exe n cwd (job :: after)) [] := by
  rw [tracedChecker]
  exact (raw_halts h).bind _

theorem trace_rules {a : Analyzer U σ} {u : U} {s s' : σ} {seen : List RuleId} {found : List Violation}
    (h : Checked a u s seen found s') (k : Nat) (after : List RuleId) :
    tracedRules a k u (seen ++ after) s =
      ⟨looks seen k ++ (tracedRules a k u after s').events, (tracedRules a k u after s').result⟩ := by
  induction h with
  | nil s => rfl
  | cons h1 h2 ih =>
    rw [List.cons_append, tracedRules, emit_bind, h1, calm_ok, ih]
    rfl

theorem trace_rules_stop {a : Analyzer U σ} {u : U} {s : σ} {seen : List RuleId} {rule : RuleId}
    (h : LeavesOff a u s seen rule) (k : Nat) :
    Halts (tracedRules a k u a.filteredRules s) (looks (seen ++ [rule]) k) := by
  obtain ⟨after, found, mid, h1, h2, h3⟩ := h
  rw [h1, trace_rules h2]
  have : Halts (tracedRules a k u (rule :: after) mid) [.look k rule] := by
    rw [tracedRules]
    refine Halts.after (es := [.look k rule]) (es' := []) (Halts.bind ⟨rfl, ?_⟩ _)
    exact h3
  have h4 := halts_mk this (looks seen k)
  have e : looks (seen ++ [rule]) k = looks seen k ++ [.look k rule] := by simp [looks]
  rw [e]
  exact h4

theorem trace_analyze {a : Analyzer U σ} {ps : List (CompileResult U × Nat)}
    (hp : ∀ p ∈ ps, (unitOf p.1).isSome) {s s' : σ} {found : List (List Violation)}
    (h : CheckedAll a s (ps.filterMap fun p => unitOf p.1) found s') (rest : List (Instance × U)) :
    tracedAnalyze a (started ps ++ rest) s =
      ⟨(ps.flatMap fun p => looks a.filteredRules p.2) ++ (tracedAnalyze a rest s').events,
        (tracedAnalyze a rest s').result⟩ := by
  induction ps generalizing s found with
  | nil => cases h; rfl
  | cons p ps ih =>
    have hs := hp p (by simp)
    obtain ⟨u, hu⟩ := Option.isSome_iff_exists.1 hs
    rw [List.filterMap_cons, hu] at h
    cases h with
    | cons h1 h2 =>
      have e : started (p :: ps) = (startedInstance p.1 p.2, u) :: started ps := by
        simp [started, hu]
      have h3 := trace_rules h1 p.2 []
      simp only [List.append_nil, tracedRules, traced_pure] at h3
      rw [e, List.cons_append, tracedAnalyze]
      show (tracedRules a p.2 u a.filteredRules s >>= _) = _
      rw [h3, traced_ok, ih (fun q hq => hp q (by simp [hq])) h2]
      simp

theorem trace_analyze_stop {a : Analyzer U σ} {ps after : List (CompileResult U × Nat)}
    {r : CompileResult U} {k : Nat} {u : U} (hp : ∀ p ∈ ps, (unitOf p.1).isSome) {s s' : σ}
    {found : List (List Violation)}
    (h : CheckedAll a s (ps.filterMap fun p => unitOf p.1) found s') (hu : unitOf r = some u)
    {seen : List RuleId} {rule : RuleId} (hl : LeavesOff a u s' seen rule) :
    Halts (tracedAnalyze a (started (ps ++ (r, k) :: after)) s)
      ((ps.flatMap fun p => looks a.filteredRules p.2) ++ looks (seen ++ [rule]) k) := by
  have e : started (ps ++ (r, k) :: after) =
      started ps ++ (startedInstance r k, u) :: started after := by
    simp [started, hu]
  rw [e, trace_analyze hp h]
  refine halts_mk ?_ _
  rw [tracedAnalyze]
  exact (trace_rules_stop hl k).bind _

theorem trace_release {β : Type} (ps : List (CompileResult U × Nat))
    (hp : ∀ p ∈ ps, (unitOf p.1).isSome) (f : Unit → Traced β) :
    (tracedRelease (started ps) >>= f) =
      ⟨(ps.flatMap fun p => closing p.1 p.2 ++ [.delete p.2]) ++ (f ()).events, (f ()).result⟩ := by
  have h : tracedRelease (started ps) =
      ⟨ps.flatMap fun p => closing p.1 p.2 ++ [.delete p.2], .ok ()⟩ := by
    induction ps with
    | nil => rfl
    | cons p ps ih =>
      obtain ⟨u, hu⟩ := Option.isSome_iff_exists.1 (hp p (by simp))
      have e : started (p :: ps) = (startedInstance p.1 p.2, u) :: started ps := by
        simp [started, hu]
      rw [e, tracedRelease, end_started, emit_bind, ih fun q hq => hp q (by simp [hq])]
      simp [startedInstance]
  rw [h, traced_ok]

/-- The whole of `invoke`. -/
theorem trace_invoke {tc : Toolchain U} {exe : Str} {cwd mid : Str}
    {jobs : List (Str × CompileCommand)} {rs : List (CompileResult U)}
    (h : CompileAll tc exe false cwd jobs rs mid) {a : Analyzer U σ} {s s' : σ}
    {found : List (List Violation)} (hc : CheckedAll a s (rs.filterMap unitOf) found s') (n : Nat) :
    tracedInvoke tc exe a ⟨n, cwd, s⟩ jobs =
      ⟨((rs.zipIdx n).flatMap fun p => opening p.1 p.2) ++
          (((goodFrom n rs).flatMap fun p => looks a.filteredRules p.2) ++
            ((goodFrom n rs).flatMap fun p => closing p.1 p.2 ++ [.delete p.2])),
        .ok ⟨n + rs.length, mid, s'⟩⟩ := by
  have hx := trace_construct h [] n []
  simp only [List.append_nil, List.nil_append, tracedConstruct, traced_pure] at hx
  have hy := trace_analyze (ps := goodFrom n rs) (fun p hp => good_some hp)
    (by rw [units_good]; exact hc) []
  simp only [List.append_nil, tracedAnalyze, traced_pure] at hy
  unfold tracedInvoke
  rw [hx, traced_ok, hy, traced_ok, trace_release _ fun p hp => good_some hp]
  simp only [traced_pure, List.append_nil]

theorem trace_invoke_stop {tc : Toolchain U} {exe : Str} {cwd mid : Str}
    {jobs : List (Str × CompileCommand)} {rs : List (CompileResult U)}
    (h : CompileAll tc exe false cwd jobs rs mid) {a : Analyzer U σ} {s s' : σ}
    {found : List (List Violation)} {n : Nat} {before after : List (CompileResult U × Nat)}
    {r : CompileResult U} {k : Nat} {u : U} (hg : goodFrom n rs = before ++ (r, k) :: after)
    (hu : unitOf r = some u) (hc : CheckedAll a s (before.filterMap fun p => unitOf p.1) found s')
    {seen : List RuleId} {rule : RuleId} (hl : LeavesOff a u s' seen rule) :
    Halts (tracedInvoke tc exe a ⟨n, cwd, s⟩ jobs)
      (((rs.zipIdx n).flatMap fun p => opening p.1 p.2) ++
        ((before.flatMap fun p => looks a.filteredRules p.2) ++ looks (seen ++ [rule]) k)) := by
  have hx := trace_construct h [] n []
  simp only [List.append_nil, List.nil_append, tracedConstruct, traced_pure] at hx
  unfold tracedInvoke
  rw [hx]
  refine Halts.after (Halts.bind ?_ _)
  show Halts (tracedAnalyze a (started (goodFrom n rs)) s) _
  rw [hg]
  refine trace_analyze_stop (fun p hp => ?_) hc hu hl
  exact good_some (n := n) (rs := rs) (by rw [hg]; simp [hp])

theorem checkedAll_append {a : Analyzer U σ} {s s' : σ} {us vs : List U} {found : List (List Violation)} :
    CheckedAll a s (us ++ vs) found s' ↔ ∃ f1 f2 mid, found = f1 ++ f2 ∧ CheckedAll a s us f1 mid ∧
      CheckedAll a mid vs f2 s' := by
  induction us generalizing s found with
  | nil =>
    constructor
    · intro h; exact ⟨[], found, s, rfl, .nil s, h⟩
    · rintro ⟨f1, f2, mid, rfl, h1, h2⟩; cases h1; exact h2
  | cons u us ih =>
    constructor
    · intro h
      cases h with
      | cons h1 h2 =>
        obtain ⟨f1, f2, mid, rfl, h3, h4⟩ := ih.1 h2
        exact ⟨_ :: f1, f2, mid, rfl, .cons h1 h3, h4⟩
    · rintro ⟨f1, f2, mid, rfl, h1, h2⟩
      cases h1 with
      | cons h3 h4 => exact .cons h3 (ih.2 ⟨_, _, _, rfl, h4, h2⟩)

theorem trace_each {tc : Toolchain U} {exe : Str} {cwd mid : Str}
    {before : List (Str × CompileCommand)} {rs : List (CompileResult U)}
    (h : CompileAll tc exe false cwd before rs mid) {a : Analyzer U σ} {s s' : σ}
    {found : List (List Violation)} (hc : CheckedAll a s (rs.filterMap unitOf) found s')
    (after : List (Str × CompileCommand)) (n : Nat) :
    tracedInvokeEach tc exe a ⟨n, cwd, s⟩ (before ++ after) =
      let rest := tracedInvokeEach tc exe a ⟨n + rs.length, mid, s'⟩ after
      ⟨((rs.zipIdx n).flatMap fun p => wholeLife a.filteredRules p.1 p.2) ++ rest.events,
        rest.result⟩ := by
  induction h generalizing n s found with
  | nil cwd => cases hc; simp
  | cons h1 h2 ih =>
    rename_i cwd mid cwd' job jobs r rs
    have hr : (r :: rs).filterMap unitOf = [r].filterMap unitOf ++ rs.filterMap unitOf := by
      rw [← List.filterMap_append]; rfl
    rw [hr] at hc
    obtain ⟨f1, f2, s1, -, hc1, hc2⟩ := checkedAll_append.1 hc
    rw [List.cons_append, tracedInvokeEach, trace_invoke (.cons h1 (.nil mid)) hc1, traced_ok]
    have e : n + 1 + rs.length = n + (r :: rs).length := by simp; omega
    simp only [List.length_cons, List.length_nil, Nat.zero_add]
    rw [ih hc2]
    cases hr : (unitOf r).isSome <;>
      simp [List.zipIdx_cons, goodFrom, wholeLife, hr, e, List.append_assoc]

theorem invoke_stops {tc : Toolchain U} {exe : Str} {cwd mid : Str}
    {before : List (Str × CompileCommand)} {rs : List (CompileResult U)}
    (h : CompileAll tc exe false cwd before rs mid) {job : Str × CompileCommand}
    (hn : ¬ ∃ r cwd', Compiles tc exe false mid job r cwd') (a : Analyzer U σ) (s : σ)
    (after : List (Str × CompileCommand)) (n : Nat) :
    Halts (tracedInvoke tc exe a ⟨n, cwd, s⟩ (before ++ job :: after))
        ((rs.zipIdx n).flatMap fun p => opening p.1 p.2) := by
  unfold tracedInvoke
  rw [trace_construct h]
  refine Halts.bind ?_ _
  have := halts_mk (trace_construct_stops (cs := [] ++ started (goodFrom n rs)) hn after (n + rs.length))
    ((rs.zipIdx n).flatMap fun p => opening p.1 p.2)
  rw [List.append_nil] at this
  exact this

end Oclint
