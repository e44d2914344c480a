import Verif.Props.ReportText

/-!
# C55: which line based reports read back as what they are about

A record is read from one line, so none of its texts has a newline, and a text that ends at the first
`:`, `[` or `|` does not have that character.  With what `Props/ReportText.lean` proves, the text and the
Xcode report read back exactly if the records are free of those characters.
-/

namespace Oclint
open Spec

theorem linesOf_no_newline (s : Str) : ∀ l ∈ linesOf s, '\n' ∉ l := by
  induction s with
  | nil => intro l hl; simp only [linesOf, List.mem_singleton] at hl; subst hl; simp
  | cons c s ih =>
    intro l hl
    by_cases hc : c = '\n'
    · subst hc
      rw [linesOf_newline] at hl
      rcases List.mem_cons.1 hl with rfl | hl
      · simp
      · exact ih l hl
    · have e : linesOf (c :: s) = match linesOf s with
          | [] => [[c]]
          | l :: ls => (c :: l) :: ls := by
        rw [linesOf]
        · cases linesOf s <;> rfl
        · exact hc
      rw [e] at hl
      cases hs : linesOf s with
      | nil =>
        rw [hs] at hl
        simp only [List.mem_singleton] at hl
        subst hl
        simp [Ne.symm hc]
      | cons m ms =>
        rw [hs] at hl
        rcases List.mem_cons.1 hl with rfl | hl
        · exact not_mem_cons (Ne.symm hc) (ih m (by simp [hs]))
        · exact ih l (by simp [hs, hl])

theorem cut_parts (c : Char) (s a r : Str) (h : cut c s = some (a, r)) : c ∉ a ∧ s = a ++ c :: r := by
  induction s generalizing a with
  | nil => cases h
  | cons d s ih =>
    rw [cut] at h
    by_cases hd : d = c
    · rw [if_pos hd] at h
      cases h
      subst hd
      exact ⟨by simp, rfl⟩
    · rw [if_neg hd] at h
      cases hk : cut c s with
      | none => rw [hk] at h; cases h
      | some p =>
        rw [hk] at h
        cases h
        obtain ⟨h1, h2⟩ := ih p.1 hk
        exact ⟨not_mem_cons (Ne.symm hd) h1, by rw [h2]; rfl⟩

theorem strip_parts (p s r : Str) (h : strip p s = some r) : s = p ++ r := by
  induction p generalizing s with
  | nil => cases h; rfl
  | cons c p ih =>
    cases s with
    | nil => cases h
    | cons d s =>
      rw [strip] at h
      by_cases hd : c = d
      · rw [if_pos hd] at h
        subst hd
        rw [ih s h]
        rfl
      · rw [if_neg hd] at h
        cases h

theorem dropSpace_parts (s r : Str) (h : dropSpace s = some r) : s = r ++ [' '] := by
  unfold dropSpace at h
  split at h
  · rename_i t ht
    cases h
    have := congrArg List.reverse ht
    simpa using this
  · cases h

theorem readPlace_parts (s : Str) (p : Str) (l c : Int) (r : Str)
    (h : readPlace s = some ((p, l, c), r)) : ':' ∉ p ∧ ∀ a, a ∉ s → a ∉ p ∧ a ∉ r := by
  unfold readPlace at h
  simp only [Option.bind_eq_bind, Option.bind_eq_some_iff, Option.pure_def, Option.some.injEq,
    Prod.mk.injEq] at h
  obtain ⟨⟨p1, r1⟩, h1, ⟨p2, r2⟩, h2, ⟨p3, r3⟩, h3, l', -, c', -, ⟨rfl, -, -⟩, rfl⟩ := h
  obtain ⟨n1, e1⟩ := cut_parts _ _ _ _ h1
  obtain ⟨-, e2⟩ := cut_parts _ _ _ _ h2
  obtain ⟨-, e3⟩ := cut_parts _ _ _ _ h3
  refine ⟨n1, fun a ha => ?_⟩
  simp only at e1 e2 e3
  rw [e1, e2, e3] at ha
  simp only [List.mem_append, List.mem_cons, not_or] at ha
  tauto

theorem readDiagLine_parts (s : Str) (d : DiagRecord) (h : readDiagLine s = some d) (hs : '\n' ∉ s) :
    ':' ∉ d.path ∧ '\n' ∉ d.path ∧ '\n' ∉ d.message := by
  unfold readDiagLine at h
  simp only [Option.bind_eq_bind, Option.bind_eq_some_iff, Option.pure_def, Option.some.injEq] at h
  obtain ⟨⟨⟨p, l, c⟩, r⟩, h1, m, h2, rfl⟩ := h
  obtain ⟨n1, h3⟩ := readPlace_parts _ _ _ _ _ h1
  obtain ⟨k1, k2⟩ := h3 _ hs
  have e := strip_parts _ _ _ h2
  simp only at e
  rw [e] at k2
  exact ⟨n1, k1, fun hm => k2 (by simp [hm])⟩

theorem readViolationLine_parts (tag s : Str) (d : LineRecord)
    (h : readViolationLine tag s = some d) (hs : '\n' ∉ s) :
    ':' ∉ d.path ∧ '\n' ∉ d.path ∧ '\n' ∉ d.message ∧ '[' ∉ d.rule ∧ '\n' ∉ d.rule ∧
      '|' ∉ d.category ∧ '\n' ∉ d.category := by
  unfold readViolationLine at h
  simp only [Option.bind_eq_bind, Option.bind_eq_some_iff, Option.pure_def, Option.some.injEq] at h
  obtain ⟨⟨⟨p, l, c⟩, r⟩, h1, r1, h2, ⟨n, r2⟩, h3, rule, h4, ⟨cat, r3⟩, h5, r4, h6, ⟨pr, r5⟩, h7, z, -,
    m, h8, rfl⟩ := h
  obtain ⟨n1, k⟩ := readPlace_parts _ _ _ _ _ h1
  obtain ⟨k1, k2⟩ := k _ hs
  have e2 := strip_parts _ _ _ h2
  obtain ⟨n3, e3⟩ := cut_parts _ _ _ _ h3
  have e4 := dropSpace_parts _ _ h4
  obtain ⟨n5, e5⟩ := cut_parts _ _ _ _ h5
  have e6 := strip_parts _ _ _ h6
  obtain ⟨-, e7⟩ := cut_parts _ _ _ _ h7
  have e8 := strip_parts _ _ _ h8
  simp only at e2 e3 e4 e5 e6 e7 e8
  rw [e2, e3, e4, e5, e6, e7, e8] at k2
  rw [e4] at n3
  simp only [List.mem_append, List.mem_cons, not_or] at k2 n3
  exact ⟨n1, k1, by tauto, n3.1, by tauto, n5, by tauto⟩

theorem readAll_mem {β : Type} (f : Str → Option β) (ls : List Str) (rs : List β)
    (h : readAll f ls = some rs) : ∀ r ∈ rs, ∃ l ∈ ls, f l = some r := by
  induction ls generalizing rs with
  | nil => cases h; simp
  | cons l ls ih =>
    rw [readAll] at h
    simp only [Option.bind_eq_some_iff, Option.map_eq_some_iff] at h
    obtain ⟨a, ha, as, has, rfl⟩ := h
    intro r hr
    rcases List.mem_cons.1 hr with rfl | hr
    · exact ⟨l, by simp, ha⟩
    · obtain ⟨m, hm, e⟩ := ih as has r hr
      exact ⟨m, by simp [hm], e⟩

theorem lineRecord_clean (info : RuleId → RuleInfo) (vs : List Violation)
    (hrule : ∀ v ∈ vs, v.rule ≠ none)
    (h : ∀ d ∈ lineRecords info vs, ':' ∉ d.path ∧ '\n' ∉ d.path ∧ '\n' ∉ d.message ∧ '[' ∉ d.rule ∧
      '\n' ∉ d.rule ∧ '|' ∉ d.category ∧ '\n' ∉ d.category) : ∀ v ∈ vs, LineClean info v := by
  intro v hv
  obtain ⟨r, hr⟩ := Option.ne_none_iff_exists'.1 (hrule v hv)
  refine ⟨r, hr, ?_⟩
  exact h _ (List.mem_filterMap.2 ⟨v, hv, by rw [lineRecord, hr]; rfl⟩)

/-- **C55 (Xcode).** The lines of the report read back as the violations exactly if no path has a
colon, no rule name a `[`, no category a `|`, and none of the texts a newline. -/
theorem C55_xcode_exact (info : RuleId → RuleInfo) (w : ResultsView)
    (hrule : ∀ v ∈ w.answer .violations, v.rule ≠ none) :
    (∃ s ls, xcodeReport info w = .ok s ∧ linesOf s = ls ++ [[]] ∧
      readAll (readViolationLine " warning: ".toList) ls =
        some (lineRecords info (w.answer .violations))) ↔
    ∀ v ∈ w.answer .violations, LineClean info v := by
  refine ⟨?_, C55_xcode_reads_back_partial info w⟩
  rintro ⟨s, ls, -, hl, hr⟩
  refine lineRecord_clean info _ hrule fun d hd => ?_
  obtain ⟨l, hmem, e⟩ := readAll_mem _ _ _ hr d hd
  exact readViolationLine_parts _ _ _ e (linesOf_no_newline s l (by rw [hl]; simp [hmem]))

theorem readSection_parts (heading ls : List Str) (ds : List DiagRecord) (rest : List Str)
    (h : readSection heading ls = some (ds, rest)) (hs : ∀ l ∈ ls, '\n' ∉ l) :
    (∀ d ∈ ds, ':' ∉ d.path ∧ '\n' ∉ d.path ∧ '\n' ∉ d.message) ∧ ∀ l ∈ rest, '\n' ∉ l := by
  unfold readSection at h
  split at h
  · simp only [Option.map_eq_some_iff, Prod.mk.injEq] at h
    obtain ⟨as, h1, rfl, rfl⟩ := h
    refine ⟨fun d hd => ?_, fun l hl => ?_⟩
    · obtain ⟨l, hl, e⟩ := readAll_mem _ _ _ h1 d hd
      exact readDiagLine_parts l d e
        (hs l (List.mem_of_mem_drop ((List.takeWhile_sublist _).subset hl)))
    · exact hs l (List.mem_of_mem_drop ((List.dropWhile_sublist _).subset hl))
  · cases h
    exact ⟨by simp, hs⟩

theorem readText_parts (s : Str) (d : TextDoc) (h : readText s = some d) :
    (∀ r ∈ d.errors, ':' ∉ r.path ∧ '\n' ∉ r.path ∧ '\n' ∉ r.message) ∧
    (∀ r ∈ d.warnings, ':' ∉ r.path ∧ '\n' ∉ r.path ∧ '\n' ∉ r.message) ∧
    (∀ r ∈ d.bugs, ':' ∉ r.path ∧ '\n' ∉ r.path ∧ '\n' ∉ r.message) ∧
    ∀ r ∈ d.violations, ':' ∉ r.path ∧ '\n' ∉ r.path ∧ '\n' ∉ r.message ∧ '[' ∉ r.rule ∧
      '\n' ∉ r.rule ∧ '|' ∉ r.category ∧ '\n' ∉ r.category := by
  unfold readText at h
  simp only [Option.bind_eq_bind, Option.bind_eq_some_iff] at h
  obtain ⟨⟨es, l1⟩, h1, ⟨ws, l2⟩, h2, ⟨bs, l3⟩, h3, h⟩ := h
  obtain ⟨c1, m1⟩ := readSection_parts _ _ _ _ h1 (linesOf_no_newline s)
  obtain ⟨c2, m2⟩ := readSection_parts _ _ _ _ h2 m1
  obtain ⟨c3, m3⟩ := readSection_parts _ _ _ _ h3 m2
  simp only at h
  split_ifs at h with ht
  split at h
  · rename_i summary rest hd
    simp only [Option.bind_eq_some_iff] at h
    obtain ⟨⟨a, b, p1, p2, p3⟩, -, vs, hv, h⟩ := h
    simp only at h
    split_ifs at h
    cases h
    refine ⟨c1, c2, c3, fun r hr => ?_⟩
    obtain ⟨l, hl, e⟩ := readAll_mem _ _ _ hv r hr
    have hl' : l ∈ rest := (List.takeWhile_sublist _).subset hl
    exact readViolationLine_parts _ l r e (m3 l (List.mem_of_mem_drop (by rw [hd]; simp [hl'])))
  · cases h

/-- **C55, C58 (text).** The report reads back as what it is about exactly if no path has a colon, no
rule name a `[`, no category a `|`, and none of the texts a newline. -/
theorem C55_text_exact (info : RuleId → RuleInfo) (w : ResultsView)
    (hrule : ∀ v ∈ w.answer .violations, v.rule ≠ none) :
    (∃ s, textReport info w = .ok s ∧ readText s = some
      { errors := (w.answer .errors).map diagRecord
        warnings := (w.answer .warnings).map diagRecord
        bugs := (w.answer .checkerBugs).map diagRecord
        files := numberOfFiles w.collector
        filesWithViolations := numberOfFilesWithViolations w.collector
        p1 := countWithPriority (fun r => (info r).priority) 1 (w.answer .violations)
        p2 := countWithPriority (fun r => (info r).priority) 2 (w.answer .violations)
        p3 := countWithPriority (fun r => (info r).priority) 3 (w.answer .violations)
        violations := lineRecords info (w.answer .violations) }) ↔
    (∀ v ∈ w.answer .violations, LineClean info v) ∧
      ∀ ch, ch ≠ .violations → ∀ v ∈ w.answer ch, DiagClean v := by
  refine ⟨?_, fun h => C55_text_reads_back_partial info w h.1 h.2⟩
  rintro ⟨s, -, hr⟩
  obtain ⟨c1, c2, c3, c4⟩ := readText_parts _ _ hr
  refine ⟨lineRecord_clean info _ hrule c4, fun ch hch v hv => ?_⟩
  have hm := List.mem_map_of_mem (f := diagRecord) hv
  cases ch with
  | violations => exact absurd rfl hch
  | errors => exact c1 _ hm
  | warnings => exact c2 _ hm
  | checkerBugs => exact c3 _ hm

/-- A path with a colon: whatever else is reported, the Xcode report does not read back. -/
example (info : RuleId → RuleInfo) (w : ResultsView) (v : Violation)
    (hrule : ∀ u ∈ w.answer .violations, u.rule ≠ none) (hv : v ∈ w.answer .violations)
    (hp : v.path = "C:/a.m".toList) :
    ¬ ∃ s ls, xcodeReport info w = .ok s ∧ linesOf s = ls ++ [[]] ∧
      readAll (readViolationLine " warning: ".toList) ls =
        some (lineRecords info (w.answer .violations)) := by
  rw [C55_xcode_exact info w hrule]
  intro h
  obtain ⟨r, -, hc, -⟩ := h v hv
  rw [hp] at hc
  exact hc (by decide)

end Oclint
