import Verif.Spec.LongLineRun
import Verif.Props.SourceLines
import Verif.Props.Run
import Verif.Props.Main
import Verif.Props.Options
import Verif.Props.Registry
import Verif.Props.Suppress
import Verif.Props.ReportLimits
import Verif.Lemmas.Results

/-!
# C100: from long lines to the exit code
-/

namespace Oclint
open Spec

open Classical in
/-- One file: its findings, and which questions about suppression were asked. -/
theorem longLine_unit (apple : Bool) (cfg cfg' : Configurations) (t : Int) (rule : RuleId)
    (u : SourceUnit) (hpath : u.mainPath ≠ [])
    (hcfg : cfg.intForKey "LONG_LINE".toList 100 = .ok (t, cfg')) (lines : List Str) :
    ∀ (k : Nat) (set : ViolationSet) (qs : List Query),
      (∀ q ∈ qs, q.unit.mainPath = u.mainPath → q.unit.comments = u.comments ∧
        q.unit.topDecls = u.topDecls ∧ q.rule = some "long line".toList) →
      ∃ qs', (∀ q ∈ qs', q.unit = u ∧ q.rule = some "long line".toList) ∧
        (lines.zipIdx k).foldlM (fun st p => longLineEachLine apple cfg rule u st (p.2 : Int) p.1)
            (set, cacheAfter apple qs) =
          .ok (set ++ ((lines.zipIdx k).filter fun p => decide (TooLong apple t u p.2 p.1)).map
            (fun p => longLine rule u.mainPath t p.2 p.1), cacheAfter apple (qs ++ qs')) := by
  have step := fun st k l => longLine_step apple cfg cfg' t rule u st k l hcfg
  have indep := fun qs l h => C29_independent_partial apple qs u "long line".toList l h
  unfold TooLong
  generalize "long line".toList = name at *
  induction lines with
  | nil =>
    intro k set qs _
    exact ⟨[], by simp, by simp [Outcome.pure_eq]⟩
  | cons l ls ih =>
    intro k set qs hqs
    rw [List.zipIdx_cons, List.foldlM_cons, step, Outcome.bind_ok]
    simp only
    by_cases hlt : (l.length : Int) > t
    · rw [if_pos hlt]
      unfold addViolationLine
      simp only
      have ha := indep qs k (fun q hq hp => by
        obtain ⟨h1, h2, h3⟩ := hqs q hq hp
        exact ⟨h1, h2, Or.inr h3⟩)
      have hnext : ∀ q ∈ qs ++ [⟨u, some name, k⟩], q.unit.mainPath = u.mainPath →
          q.unit.comments = u.comments ∧ q.unit.topDecls = u.topDecls ∧ q.rule = some name := by
        intro q hq hp
        rcases List.mem_append.1 hq with h | h
        · exact hqs q h hp
        · rw [List.mem_singleton.1 h]
          exact ⟨rfl, rfl, rfl⟩
      have hc : (shouldSuppressLine apple (cacheAfter apple qs) u (some name) k).2 =
          cacheAfter apple (qs ++ [⟨u, some name, k⟩]) := (cacheAfter_snoc apple qs ⟨u, some name, k⟩).symm
      unfold answer at ha
      simp only at ha
      rw [hc]
      by_cases hs : (shouldSuppressLine apple (cacheAfter apple qs) u (some name) k).1 = true
      · rw [if_neg (by simp [hs])]
        obtain ⟨qs', h1, h2⟩ := ih (k + 1) set _ hnext
        refine ⟨⟨u, some name, k⟩ :: qs', ?_, ?_⟩
        · intro q hq
          rcases List.mem_cons.1 hq with h | h
          · rw [h]
            exact ⟨rfl, rfl⟩
          · exact h1 q h
        · rw [h2, List.filter_cons_of_neg, List.append_assoc]
          · rfl
          · have := ha.1 hs
            simp only [decide_eq_true_eq]
            tauto
      · rw [if_pos (by simpa using hs)]
        obtain ⟨qs', h1, h2⟩ := ih (k + 1) (carrierAddViolation set u.mainPath k 1 k l.length
            (some rule) ("Line with ".toList ++ toStringInt l.length ++
              " characters exceeds limit of ".toList ++ toStringInt t)) _ hnext
        refine ⟨⟨u, some name, k⟩ :: qs', ?_, ?_⟩
        · intro q hq
          rcases List.mem_cons.1 hq with h | h
          · rw [h]
            exact ⟨rfl, rfl⟩
          · exact h1 q h
        · have hno := fun h => hs (ha.2 h)
          have hv : carrierAddViolation set u.mainPath k 1 k l.length (some rule)
              ("Line with ".toList ++ toStringInt l.length ++
                " characters exceeds limit of ".toList ++ toStringInt t) =
              set ++ [longLine rule u.mainPath t k l] := by
            unfold carrierAddViolation ViolationSet.addViolation longLine
            rw [if_pos hpath, toStringInt_eq, toStringInt_eq]
            rfl
          rw [h2, hv, List.filter_cons_of_pos, List.map_cons, List.append_assoc, List.append_assoc]
          · rfl
          · simp only [decide_eq_true_eq]
            exact ⟨hlt, fun h => hno (Or.inl h), fun h => hno (Or.inr h)⟩
    · rw [if_neg hlt]
      obtain ⟨qs', h1, h2⟩ := ih (k + 1) set qs hqs
      refine ⟨qs', h1, ?_⟩
      rw [h2, List.filter_cons_of_neg]
      simp only [decide_eq_true_eq]
      exact fun h => hlt h.1

/-- One file, as the driver sees it. -/
theorem longLine_takeoff (apple : Bool) (cfg cfg' : Configurations) (t : Int) (rule : RuleId)
    (u : SourceUnit) (lines : List Str) (hl : IsLines u.buffer lines) (hpath : u.mainPath ≠ [])
    (hcfg : cfg.intForKey "LONG_LINE".toList 100 = .ok (t, cfg')) (qs : List Query)
    (hqs : ∀ q ∈ qs, q.unit.mainPath = u.mainPath → q.unit.comments = u.comments ∧
      q.unit.topDecls = u.topDecls ∧ q.rule = some "long line".toList) :
    ∃ qs', (∀ q ∈ qs', q.unit = u ∧ q.rule = some "long line".toList) ∧
      longLineTakeoff apple cfg rule (cacheAfter apple qs) u =
        .ok (cacheAfter apple (qs ++ qs'), (tooLongLines apple rule t u lines).map asReport) := by
  obtain ⟨qs', h1, h2⟩ := longLine_unit apple cfg cfg' t rule u hpath hcfg lines 1 [] qs hqs
  refine ⟨qs', h1, ?_⟩
  unfold longLineTakeoff
  rw [C31_apply _ _ _ _ hl]
  rw [show lines.zipIdx 1 = lines.zipIdx.map fun p => (p.1, p.2 + 1) by
    rw [List.zipIdx_succ], List.foldlM_map] at h2
  have : lines.zipIdx.foldlM (fun st p => longLineEachLine apple cfg rule u st ((p.2 : Int) + 1) p.1)
      ([], cacheAfter apple qs) = _ := h2
  rw [this, Outcome.bind_ok, Outcome.pure_eq]
  rw [List.nil_append, ← show lines.zipIdx 1 = lines.zipIdx.map fun p => (p.1, p.2 + 1) by
    rw [List.zipIdx_succ]]
  rfl

theorem kept_asReport (rule : RuleId) (vs : List Violation)
    (h : ∀ v ∈ vs, v.path ≠ [] ∧ v.rule = some rule) : kept rule (vs.map asReport) = vs := by
  induction vs with
  | nil => rfl
  | cons v vs ih =>
    have hv := h v (by simp)
    have hrest := ih (fun w hw => h w (by simp [hw]))
    unfold kept at hrest ⊢
    rw [List.map_cons, List.filter_cons_of_pos (p := fun r : Report => decide (r.path ≠ []))
      (decide_eq_true (show (asReport v).path ≠ [] from hv.1)), List.map_cons, hrest]
    congr 1
    unfold reportEntry asReport
    simp only
    rw [← hv.2]

theorem mem_tooLongLines (apple : Bool) (rule : RuleId) (t : Int) (u : SourceUnit) (lines : List Str)
    (v : Violation) : v ∈ tooLongLines apple rule t u lines ↔
      ∃ line number, (line, number) ∈ lines.zipIdx 1 ∧ TooLong apple t u number line ∧
        v = longLine rule u.mainPath t number line := by
  classical
  unfold tooLongLines
  simp only [List.mem_map, List.mem_filter, decide_eq_true_eq, Prod.exists]
  constructor
  · rintro ⟨a, b, ⟨h1, h2⟩, h3⟩
    exact ⟨a, b, h1, h2, h3.symm⟩
  · rintro ⟨a, b, h1, h2, h3⟩
    exact ⟨a, b, ⟨h1, h2⟩, h3.symm⟩

/-- All files, one after the other. -/
theorem longLine_units (apple : Bool) (cfg cfg' : Configurations) (t : Int) (rule : RuleId)
    (hcfg : cfg.intForKey "LONG_LINE".toList 100 = .ok (t, cfg')) (linesOf : SourceUnit → List Str)
    (us : List SourceUnit) (hl : ∀ u ∈ us, IsLines u.buffer (linesOf u)) (hp : ∀ u ∈ us, u.mainPath ≠ [])
    (hd : us.Pairwise fun u v => u.mainPath ≠ v.mainPath) (qs : List Query)
    (hqs : ∀ q ∈ qs, ∀ u ∈ us, q.unit.mainPath ≠ u.mainPath) :
    ∃ s, CheckedAll ⟨[rule], fun r => longLineTakeoff apple cfg r⟩ (cacheAfter apple qs) us
      (us.map fun u => tooLongLines apple rule t u (linesOf u)) s := by
  induction us generalizing qs with
  | nil => exact ⟨_, .nil _⟩
  | cons u us ih =>
    obtain ⟨hd1, hd2⟩ := List.pairwise_cons.1 hd
    obtain ⟨qs', h1, h2⟩ := longLine_takeoff apple cfg cfg' t rule u (linesOf u) (hl u (by simp))
      (hp u (by simp)) hcfg qs (fun q hq h => absurd h (hqs q hq u (by simp)))
    obtain ⟨s, hs⟩ := ih (fun v hv => hl v (by simp [hv])) (fun v hv => hp v (by simp [hv])) hd2 (qs ++ qs')
      (by
        intro q hq v hv
        rcases List.mem_append.1 hq with h | h
        · exact hqs q h v (by simp [hv])
        · rw [(h1 q h).1]
          exact hd1 v hv)
    refine ⟨s, .cons ?_ hs⟩
    have hk := kept_asReport rule (tooLongLines apple rule t u (linesOf u)) (by
      intro v hv
      obtain ⟨line, number, -, -, rfl⟩ := (mem_tooLongLines _ _ _ _ _ _).1 hv
      exact ⟨hp u (by simp), rfl⟩)
    have := Checked.cons (a := ⟨[rule], fun r => longLineTakeoff apple cfg r⟩) h2
      (Checked.nil (cacheAfter apple (qs ++ qs')))
    rw [hk, List.append_nil] at this
    exact this

/-- No two lines give the same violation. -/
theorem nodup_tooLong (apple : Bool) (rule : RuleId) (t : Int) (linesOf : SourceUnit → List Str)
    (us : List SourceUnit) (hd : us.Pairwise fun u v => u.mainPath ≠ v.mainPath) :
    (us.flatMap fun u => tooLongLines apple rule t u (linesOf u)).Nodup := by
  classical
  rw [List.nodup_flatMap]
  constructor
  · intro u _
    unfold tooLongLines
    have hz : ((linesOf u).zipIdx 1).Pairwise fun p q => p.2 < q.2 := by
      generalize linesOf u = ls
      generalize 1 = k
      induction ls generalizing k with
      | nil => exact .nil
      | cons l ls ih =>
        rw [List.zipIdx_cons]
        refine List.Pairwise.cons ?_ (ih _)
        rintro ⟨a, b⟩ h
        have := List.le_snd_of_mem_zipIdx h
        simp only at this ⊢
        omega
    refine List.Pairwise.map _ ?_ (hz.filter _)
    intro p q hpq h
    have : (p.2 : Int) = q.2 := congrArg Violation.startLine h
    omega
  · refine hd.imp_of_mem ?_
    intro u v hu hv huv w hw hw'
    obtain ⟨_, _, _, _, h1⟩ := (mem_tooLongLines _ _ _ _ _ _).1 hw
    obtain ⟨_, _, _, _, h2⟩ := (mem_tooLongLines _ _ _ _ _ _).1 hw'
    rw [h1] at h2
    exact huv (congrArg Violation.path h2)

variable {κ : Type}

/-- What a run of the long line rule alone collects. -/
theorem longLines_collected (m : Machine SourceUnit SuppressCache κ) (st : OptionState) (apple : Bool)
    (rule : RuleId) (t : Int) (rs : List (CompileResult SourceUnit)) (linesOf : SourceUnit → List Str)
    (h : LongLinesOnly m st apple rule t rs linesOf) :
    analysis m st = .ok (collected ResultCollector.empty rs [] ((rs.filterMap unitOf).map
      fun u => tooLongLines apple rule t u (linesOf u))) := by
  obtain ⟨cfg', hcfg⟩ := h.limit
  obtain ⟨cwd, hcompiled⟩ := h.compiled
  obtain ⟨s, hs⟩ := longLine_units apple st.configurations cfg' t rule hcfg linesOf
    (rs.filterMap unitOf) h.lines h.named h.distinct [] (by simp)
  have hinit : m.initialRules = cacheAfter apple [] := h.fresh
  have hcomp := Completes.plain (st := ⟨m.env.cwd, ResultCollector.empty, m.initialRules⟩)
    h.checkerOff hcompiled (by rw [hinit]; exact hs)
  have hrun := (C92_collects m.toolchain m.mainExecutable st.argGlobalAnalysis.value
    st.argClangChecker.value _ m.db m.sources _ _).2 ⟨rs, [], hcomp⟩
  unfold analysis
  rw [h.only, h.takeoff, hrun]

/-- What a run of the long line rule alone finds: in the order of the files and of their lines one
violation for each line that is too long, whether or not duplicates are allowed, together or file by
file. -/
theorem C100_findings (m : Machine SourceUnit SuppressCache κ) (st : OptionState) (apple : Bool)
    (rule : RuleId) (t : Int) (rs : List (CompileResult SourceUnit)) (linesOf : SourceUnit → List Str)
    (h : LongLinesOnly m st apple rule t rs linesOf) :
    ∃ c, analysis m st = .ok c ∧
      answers st c .violations = (rs.filterMap unitOf).flatMap
        (fun u => tooLongLines apple rule t u (linesOf u)) ∧
      (rawAll c .errors = [] ↔ ∀ r ∈ rs, ∀ d ∈ r.diagnostics, d.level ≠ .error ∧ d.level ≠ .fatal) := by
  refine ⟨collected ResultCollector.empty rs [] ((rs.filterMap unitOf).map
    fun u => tooLongLines apple rule t u (linesOf u)), longLines_collected m st apple rule t rs linesOf h,
    ?_, ?_⟩
  · unfold answers
    have hv : ∀ vs : List (List Violation), rawAll (collected (U := SourceUnit) ResultCollector.empty rs [] vs)
        .violations = vs.flatten := by
      intro vs
      unfold rawAll collected
      simp only [ResultCollector.empty, List.nil_append]
      exact collectAll_eq vs
    simp only [hv]
    rw [← List.flatMap_def]
    rw [firsts_of_nodup _ (nodup_tooLong apple rule t linesOf _ h.distinct), ite_self]
  · unfold rawAll collected entriesOf
    simp only [ResultCollector.empty, List.nil_append, List.map_eq_nil_iff, List.filter_eq_nil_iff,
      List.mem_flatMap, decide_eq_true_eq, not_or]
    constructor
    · intro hh r hr d hd
      exact hh d ⟨r, hr, hd⟩
    · rintro hh d ⟨r, hr, hd⟩
      exact hh r hr d hd

variable [DecidableEq κ]

/-- If nothing goes wrong and no file has errors, the exit code says whether there are more lines that
are too long than allowed. -/
theorem C100_exit (m : Machine SourceUnit SuppressCache κ) (cli : CommandLine) (st : OptionState)
    (apple : Bool) (rule : RuleId) (t : Int) (rs : List (CompileResult SourceUnit))
    (linesOf : SourceUnit → List Str) (hst : processOptions m.env cli = .ok st)
    (h : LongLinesOnly m st apple rule t rs linesOf) (hload : RulesLoad m st) (reporter : Str)
    (hrep : loadReporter m.listing m.reporterLibrary st.argReportType.value (reporterDir m.env) =
      .ok reporter)
    (hreport : ∀ a, Reported m st reporter a = .ok ())
    (hclean : ∀ r ∈ rs, ∀ d ∈ r.diagnostics, d.level ≠ .error ∧ d.level ≠ .fatal)
    (hprio : m.priorityOf rule = 3) (h1 : 0 ≤ st.argMaxP1.value) (h2 : 0 ≤ st.argMaxP2.value) :
    mainProgram m (some cli) = .ok
      (if st.argMaxP3.value < (((rs.filterMap unitOf).map
          fun u => (tooLongLines apple rule t u (linesOf u)).length).sum : Nat)
        then .VIOLATIONS_EXCEED_THRESHOLD else .SUCCESS) := by
  obtain ⟨c, hc, hvio, herr⟩ := C100_findings m st apple rule t rs linesOf h
  have hcount : ∀ p, countWithPriority m.priorityOf p (answers st c .violations) =
      if p = 3 then (answers st c .violations).length else 0 := by
    intro p
    unfold countWithPriority
    have hall : ∀ v ∈ answers st c .violations, v.rule.map m.priorityOf = some 3 := by
      intro v hv
      rw [hvio, List.mem_flatMap] at hv
      obtain ⟨u, _, hv⟩ := hv
      obtain ⟨line, number, -, -, rfl⟩ := (mem_tooLongLines _ _ _ _ _ _).1 hv
      simp [longLine, hprio]
    split
    · rename_i hp
      rw [List.filter_eq_self.2]
      intro v hv
      rw [hall v hv, hp]
      simp
    · rename_i hp
      rw [List.filter_eq_nil_iff.2]
      · rfl
      · intro v hv
        rw [hall v hv]
        simp only [Option.some.injEq, decide_eq_true_eq]
        exact fun hh => hp hh.symm
  have hlen : ((answers st c .violations).length : Int) = (((rs.filterMap unitOf).map
      fun u => (tooLongLines apple rule t u (linesOf u)).length).sum : Nat) := by
    rw [hvio, List.length_flatMap]
  have hlim : WithinLimits m st (answers st c .violations) ↔
      ¬ st.argMaxP3.value < (((rs.filterMap unitOf).map
          fun u => (tooLongLines apple rule t u (linesOf u)).length).sum : Nat) := by
    unfold WithinLimits
    rw [hcount, hcount, hcount, if_neg (by decide), if_neg (by decide), if_pos rfl, hlen, not_lt]
    exact ⟨fun hh => hh.2.2, fun hh => ⟨by simpa using h1, by simpa using h2, hh⟩⟩
  rw [C17_exit_code m cli st hst]
  split
  · rename_i hgt
    exact .threshold reporter c hload hrep hc (hreport _) (herr.2 hclean) (fun hh => hlim.1 hh hgt)
  · rename_i hle
    exact .success reporter c hload hrep hc (hreport _) (herr.2 hclean) (hlim.2 hle)

/-! ## How the command line leads to such a run -/

theorem atoi_decimalInt (t : Int) (h : IsInt32 t) : atoi (decimalInt t) = .ok t := by
  obtain ⟨h1, -, h3⟩ := C08_atoi_reads_decimal [] [] t.natAbs (by simp) (by simp)
  simp only [List.nil_append, List.append_nil] at h1 h3
  unfold decimalInt
  unfold IsInt32 at h
  split
  · rw [h3, if_pos (by omega)]
    congr 1
    omega
  · rw [h1, if_pos (by omega)]
    congr 1
    omega

theorem notEq_decimalInt (t : Int) : '=' ∉ decimalInt t := by
  have hd : '=' ∉ decimal t.natAbs := fun h => absurd (decimal_all_digits _ _ h) (by decide)
  unfold decimalInt
  split
  · rw [List.mem_cons]
    exact fun h => h.elim (by decide) hd
  · exact hd

theorem isSplit_unique {arg k v k' v' : Str} (h : IsSplit arg k v) (h' : IsSplit arg k' v') :
    k = k' ∧ v = v' := by
  have key : ∀ (a b : Str) (c d : Str), '=' ∉ b → '=' ∉ d → a ++ '=' :: b = c ++ '=' :: d →
      a = c ∧ b = d := by
    intro a b c d hb hd he
    have h1 := List.append_eq_append_iff.1 he
    rcases h1 with ⟨x, hx, hx'⟩ | ⟨x, hx, hx'⟩
    · cases x with
      | nil => simp only [List.append_nil, List.nil_append, List.cons.injEq, true_and] at hx hx'
               exact ⟨hx.symm, hx'⟩
      | cons y ys =>
        rw [List.cons_append, List.cons.injEq] at hx'
        exact absurd (by rw [hx'.2]; simp) hb
    · cases x with
      | nil => simp only [List.append_nil, List.nil_append, List.cons.injEq, true_and] at hx hx'
               exact ⟨hx, hx'.symm⟩
      | cons y ys =>
        rw [List.cons_append, List.cons.injEq] at hx'
        exact absurd (by rw [hx'.2]; simp) hd
  rcases h with ⟨h1, h2⟩ | ⟨h1, h2, h3⟩
  · rcases h' with ⟨h4, h5⟩ | ⟨h4, -, -⟩
    · exact key _ _ _ _ h2 h5 (h1.symm.trans h4)
    · exact absurd (by rw [h1]; simp) h4
  · rcases h' with ⟨h4, h5⟩ | ⟨-, h5, h6⟩
    · exact absurd (by rw [h4]; simp) h1
    · exact ⟨h2.trans h5.symm, h3.trans h6.symm⟩

theorem configured_last (key v : Str) (before after : List CfgOp)
    (h : ∀ op ∈ after, ∃ k w, op = .set k w ∧ k ≠ key) :
    configured key (before ++ .set key v :: after) = some v := by
  unfold configured
  rw [List.reverse_append, List.reverse_cons, List.append_assoc]
  have : ∀ (l : List CfgOp) rest, (∀ op ∈ l, ∃ k w, op = .set k w ∧ k ≠ key) →
      configuredRev key (l ++ rest) = configuredRev key rest := by
    intro l rest hl
    induction l with
    | nil => rfl
    | cons op l ih =>
      obtain ⟨k, w, rfl, hk⟩ := hl op (by simp)
      rw [List.cons_append, configuredRev, if_neg hk]
      exact ih (fun o ho => hl o (by simp [ho]))
  rw [this _ _ (by simpa using h)]
  simp [configuredRev]

/-- The last `-rc` argument for a number decides, whatever the configuration files say. -/
theorem C100_threshold (e : Env) (cli : CommandLine) (st : OptionState) (key : Str) (t d : Int)
    (before after : List Str)
    (hcli : cli.ruleConfiguration = before ++ (key ++ '=' :: decimalInt t) :: after)
    (hafter : ∀ arg ∈ after, ∀ v, ¬ IsSplit arg key v) (ht : IsInt32 t)
    (hlen : ∀ s ∈ cli.ruleConfiguration, s.length < 2147483648)
    (hst : processOptions e cli = .ok st) :
    st.configurations.intForKey key d = .ok (t, st.configurations) := by
  obtain ⟨rc, hrc, hget⟩ := C14_rule_configuration_partial e cli st hlen hst
  rw [hcli] at hrc
  obtain ⟨rc1, rc2, h1, h2, rfl⟩ : ∃ rc1 rc2,
      List.Forall₂ (fun s (kv : Str × Str) => IsSplit s kv.1 kv.2) before rc1 ∧
      List.Forall₂ (fun s (kv : Str × Str) => IsSplit s kv.1 kv.2)
        ((key ++ '=' :: decimalInt t) :: after) rc2 ∧ rc = rc1 ++ rc2 :=
    ⟨rc.take before.length, rc.drop before.length, by simpa using List.forall₂_take before.length hrc,
      by simpa using List.forall₂_drop before.length hrc, (List.take_append_drop _ _).symm⟩
  cases h2 with
  | cons hkv hrest =>
    rename_i kv rc3
    have hone : kv = (key, decimalInt t) := by
      obtain ⟨ha, hb⟩ := isSplit_unique hkv (Or.inl ⟨rfl, notEq_decimalInt t⟩)
      exact Prod.ext ha hb
    subst hone
    have hconf : configured key (settings e (rc1 ++ (key, decimalInt t) :: rc3)) =
        some (decimalInt t) := by
      unfold settings
      rw [List.map_append, List.map_cons, ← List.append_assoc]
      apply configured_last
      intro op hop
      obtain ⟨kv, hkv', rfl⟩ := List.mem_map.1 hop
      refine ⟨_, _, rfl, fun hk => ?_⟩
      obtain ⟨arg, harg, hsplit⟩ : ∃ arg ∈ after, IsSplit arg kv.1 kv.2 := by
        clear hget hrc h1 hop hcli
        induction hrest with
        | nil => simp at hkv'
        | cons hab _ ih =>
          rcases List.mem_cons.1 hkv' with rfl | hmem
          · exact ⟨_, by simp, hab⟩
          · obtain ⟨a, ha, hs⟩ := ih (fun a ha => hafter a (by simp [ha])) hmem
            exact ⟨a, by simp [ha], hs⟩
      rw [hk] at hsplit
      exact hafter arg harg _ hsplit
    have hstr := hget key []
    have hstr' := hget key ['x']
    rw [hconf, stringForKey_eq] at hstr hstr'
    simp only [Option.getD_some, Outcome.ok.injEq, Prod.mk.injEq, and_true] at hstr hstr'
    rw [intForKey_eq]
    cases hl : cfgLookup st.configurations key with
    | none =>
      rw [hl] at hstr hstr'
      simp only [Option.getD_none] at hstr hstr'
      rw [← hstr] at hstr'
      simp at hstr'
    | some w =>
      rw [hl] at hstr
      simp only [Option.getD_some] at hstr
      subst hstr
      simp only [atoi_decimalInt t ht, Outcome.bind]

/-- Enabling one rule on the command line, with nothing about rules in the configuration files, runs
that rule alone. -/
theorem C100_selected {U σ κ : Type} (m : Machine U σ κ) (cli : CommandLine) (st : OptionState)
    (name : Str) (rule : RuleId) (hst : processOptions m.env cli = .ok st)
    (henabled : cli.enabledRules = [name]) (hdisabled : cli.disabledRules = [])
    (hfiles : ∀ c ∈ sources m.env, c.rules = [] ∧ c.disableRules = [])
    (hloaded : (((rulesPath m.env st).flatMap (pluginPaths m.listing)).eraseDups.flatMap
      fun p => (m.ruleLibrary p).getD []).filter (fun r => decide (m.ruleIdentifier r = name)) = [rule]) :
    runningRules m st = [rule] := by
  have hreq : requests m.env cli = [Request.mk true name] := by
    unfold requests
    rw [henabled, hdisabled, List.flatMap_eq_nil_iff.2]
    · rfl
    · intro c hc
      rw [(hfiles c hc).1, (hfiles c hc).2]
      rfl
  have hsel : ∀ n, Selected [Request.mk true name] n ↔ n = name := by
    intro n
    have hl : ∀ k, lastRequest [Request.mk true name] k = if name = k then some true else none := by
      intro k
      unfold lastRequest
      by_cases hk : name = k <;> simp [hk]
    unfold Selected
    constructor
    · intro h
      by_contra hn
      have := h.2 ⟨name, by rw [hl, if_pos rfl]⟩
      rw [hl, if_neg (fun hh => hn hh.symm)] at this
      exact absurd this (by simp)
    · rintro rfl
      rw [hl, if_pos rfl]
      exact ⟨by simp, fun _ => rfl⟩
  unfold runningRules
  rw [← hloaded]
  congr 1
  funext r
  rw [Bool.eq_iff_iff, (C14_rule_selection_partial m.env cli st hst _).1, hreq, hsel]
  simp

/-- The whole way: `-rule LongLine -rc LONG_LINE=t` on a machine where one loaded rule has that
identifier and nothing else is configured. -/
theorem C100_command_line (m : Machine SourceUnit SuppressCache κ) (cli : CommandLine)
    (st : OptionState) (apple : Bool) (rule : RuleId) (t : Int)
    (rs : List (CompileResult SourceUnit)) (linesOf : SourceUnit → List Str) (reporter cwd : Str)
    (hst : processOptions m.env cli = .ok st)
    (henabled : cli.enabledRules = ["LongLine".toList]) (hdisabled : cli.disabledRules = [])
    (hrc : cli.ruleConfiguration = ["LONG_LINE".toList ++ '=' :: decimalInt t]) (ht : IsInt32 t)
    (hfiles : ∀ c ∈ sources m.env, c.rules = [] ∧ c.disableRules = [])
    (hloaded : (((rulesPath m.env st).flatMap (pluginPaths m.listing)).eraseDups.flatMap
      fun p => (m.ruleLibrary p).getD []).filter
        (fun r => decide (m.ruleIdentifier r = "LongLine".toList)) = [rule])
    (htakeoff : m.takeoff = fun r => longLineTakeoff apple st.configurations r)
    (hfresh : m.initialRules = SuppressCache.empty) (hchecker : st.argClangChecker.value = false)
    (hcompiled : CompileAll m.toolchain m.mainExecutable false m.env.cwd
      (jobsOf m.toolchain m.db m.sources) rs cwd)
    (hlines : ∀ u ∈ rs.filterMap unitOf, IsLines u.buffer (linesOf u))
    (hnamed : ∀ u ∈ rs.filterMap unitOf, u.mainPath ≠ [])
    (hdistinct : (rs.filterMap unitOf).Pairwise fun u v => u.mainPath ≠ v.mainPath)
    (hload : RulesLoad m st)
    (hrep : loadReporter m.listing m.reporterLibrary st.argReportType.value (reporterDir m.env) =
      .ok reporter)
    (hreport : ∀ a, Reported m st reporter a = .ok ())
    (hclean : ∀ r ∈ rs, ∀ d ∈ r.diagnostics, d.level ≠ .error ∧ d.level ≠ .fatal)
    (hprio : m.priorityOf rule = 3) (h1 : 0 ≤ st.argMaxP1.value) (h2 : 0 ≤ st.argMaxP2.value) :
    mainProgram m (some cli) = .ok
      (if st.argMaxP3.value < (((rs.filterMap unitOf).map
          fun u => (tooLongLines apple rule t u (linesOf u)).length).sum : Nat)
        then .VIOLATIONS_EXCEED_THRESHOLD else .SUCCESS) := by
  have honly := C100_selected m cli st _ rule hst henabled hdisabled hfiles hloaded
  have hlimit := C100_threshold m.env cli st "LONG_LINE".toList t 100 [] [] hrc (by simp) ht
    (by
      rw [hrc]
      intro s hs
      rw [List.mem_singleton.1 hs, List.length_append, List.length_cons]
      have : "LONG_LINE".toList.length = 9 := by decide
      have hdec := decimal_length 10 t.natAbs (by unfold IsInt32 at ht; omega)
      have hint : (decimalInt t).length ≤ (decimal t.natAbs).length + 1 := by
        unfold decimalInt
        split <;> simp
      omega) hst
  exact C100_exit m cli st apple rule t rs linesOf hst
    ⟨htakeoff, hfresh, honly, ⟨_, hlimit⟩, hchecker, ⟨cwd, hcompiled⟩, hlines, hnamed, hdistinct⟩
    hload reporter hrep hreport hclean hprio h1 h2

/-- A machine with the long line rule and another one, and two files with these contents. -/
def exLongMachine (a b : Str) (limit : Str) : Machine SourceUnit SuppressCache Nat :=
  { env := { cwd := "/w".toList, home := none, binPath := "/b".toList, fs := fun _ => none,
             yaml := fun _ => ConfigFile.initial }
    listing := fun d => if d = "/b/../lib/oclint/rules".toList then some ["r".toList]
      else some ["t".toList]
    ruleLibrary := fun _ => some [4, 5]
    reporterLibrary := fun _ => some (some "text".toList)
    toolchain :=
      { absolutePath := id
        chdir := fun _ d => some d
        adjust := fun c f => c ++ [f]
        build := fun _ argv => ⟨[⟨true, "clang".toList, argv⟩], [], []⟩
        compile := fun _ argv =>
          ⟨[], false, some ⟨argv.getD 1 [], none, [], if "a.c".toList ∈ argv then a else b⟩, true,
            [true]⟩ }
    mainExecutable := "/b/oclint".toList
    db := fun _ => [⟨"/w".toList, ["cc".toList]⟩]
    sources := ["a.c".toList, "b.c".toList]
    ruleIdentifier := fun r => if r = 4 then "LongLine".toList else "Other".toList
    priorityOf := fun _ => 3
    takeoff := fun r => longLineTakeoff false (some [("LONG_LINE".toList, limit)]) r
    initialRules := SuppressCache.empty
    hash := fun _ => 0
    canOpen := fun _ => false
    report := fun _ _ => .ok () }

/-- Three lines are longer than two characters, in two files: too many if two are allowed. -/
example : mainProgram (exLongMachine "abc\nab\nabcd".toList "a\nabc\n".toList "2".toList)
    (some { enabledRules := ["LongLine".toList], ruleConfiguration := ["LONG_LINE=2".toList],
            maxP3 := some 2 }) = .ok .VIOLATIONS_EXCEED_THRESHOLD := by decide +kernel
example : mainProgram (exLongMachine "abc\nab\nabcd".toList "a\nabc\n".toList "2".toList)
    (some { enabledRules := ["LongLine".toList], ruleConfiguration := ["LONG_LINE=2".toList],
            maxP3 := some 3 }) = .ok .SUCCESS := by decide +kernel

end Oclint
