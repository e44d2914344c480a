import Verif.Model.RulesSwitch
import Verif.Spec.Switch
import Verif.Lemmas.Rules
import Verif.Props.Thresholds

/-! # C49 and C65: rules about switch statements -/

namespace Oclint

open Spec

set_option linter.unusedSimpArgs false

/-! ## The labels of a switch -/

theorem caseLabel_iff (s : Stmt) : isSwitchLabel s = true ↔ CaseLabel s := by
  cases s <;> simp [isSwitchLabel, CaseLabel]

theorem ownLabelsL_eq (l : List Stmt) : ownLabelsL l = l.flatMap ownLabels := by
  induction l with
  | nil => rfl
  | cons s r ih => simp [ownLabelsL, ih]

theorem ownLabelsO_eq (o : Option Stmt) : ownLabelsO o = o.toList.flatMap ownLabels := by
  cases o <;> simp [ownLabelsO]

theorem ownLabels_perm (s : Stmt) (h : ∀ a c b, s ≠ .switchS a c b) :
    (ownLabels s).Perm ((if isSwitchLabel s then [s] else []) ++ s.kids.flatMap ownLabels) := by
  cases s with
  | switchS a c b => exact absurd rfl (h a c b)
  | defaultS x =>
    simp only [ownLabels, Stmt.kids, isSwitchLabel, if_true, List.flatMap_cons, List.flatMap_nil,
      List.append_nil]
    exact List.perm_append_comm
  | _ => simp [ownLabels, Stmt.kids, isSwitchLabel, ownLabelsL_eq, ownLabelsO_eq]

theorem ownLabels_eq (s : Stmt) (h : ∀ a c b, s ≠ .switchS a c b) (hd : ∀ x, s ≠ .defaultS x) :
    ownLabels s = (if isSwitchLabel s then [s] else []) ++ s.kids.flatMap ownLabels := by
  cases s with
  | switchS a c b => exact absurd rfl (h a c b)
  | defaultS x => exact absurd rfl (hd x)
  | _ => simp [ownLabels, Stmt.kids, isSwitchLabel, ownLabelsL_eq, ownLabelsO_eq]

theorem not_switch_of_label {s : Stmt} (hs : CaseLabel s) : ∀ a c b, s ≠ .switchS a c b := by
  rintro a c b rfl
  rcases hs with ⟨_, _, h⟩ | ⟨_, h⟩ <;> cases h

/-- The labels in the order of the source and in Clang's list are the same labels. -/
theorem labelsOf_perm {forest l : List Stmt} (h : LabelsOf forest l) :
    (forest.flatMap ownLabels).Perm l := by
  induction h with
  | nil => exact .refl _
  | switchS _ ih => exact ih
  | @label s r l hs _ ih =>
    rw [List.flatMap_cons]
    refine ((ownLabels_perm s (not_switch_of_label hs)).append_right _).trans ?_
    rw [if_pos ((caseLabel_iff s).2 hs), List.append_assoc, ← List.flatMap_append]
    exact List.Perm.cons _ ih
  | @other s r l hs hne _ ih =>
    rw [List.flatMap_cons]
    refine ((ownLabels_perm s hne).append_right _).trans ?_
    rw [if_neg (fun h => hs ((caseLabel_iff s).1 h)), List.nil_append, ← List.flatMap_append]
    exact ih

theorem labelsOf_exists (forest : List Stmt) : ∃ l, LabelsOf forest l := by
  have key : ∀ s : Stmt, ∀ r l, LabelsOf r l → ∃ l', LabelsOf (s :: r) l' := by
    intro s
    induction s using Stmt.kidsInd with
    | ih s ih =>
      intro r l hl
      have hk : ∀ ks : List Stmt, (∀ k ∈ ks, k ∈ s.kids) → ∃ l', LabelsOf (ks ++ r) l' := by
        intro ks
        induction ks with
        | nil => intro _; exact ⟨l, hl⟩
        | cons k ks ihk =>
          intro h
          obtain ⟨l', hl'⟩ := ihk fun k' hk' => h k' (by simp [hk'])
          exact ih k (h k (by simp)) _ _ hl'
      obtain ⟨l', hl'⟩ := hk _ fun _ h => h
      by_cases hsw : ∃ a c b, s = .switchS a c b
      · obtain ⟨a, c, b, rfl⟩ := hsw
        exact ⟨_, .switchS hl⟩
      · have hne : ∀ a c b, s ≠ .switchS a c b := fun a c b h => hsw ⟨a, c, b, h⟩
        by_cases hs : CaseLabel s
        · exact ⟨_, .label hs hl'⟩
        · exact ⟨_, .other hs hne hl'⟩
  induction forest with
  | nil => exact ⟨_, .nil⟩
  | cons s r ih =>
    obtain ⟨l, hl⟩ := ih
    exact key s r l hl

theorem labelsOf_unique {forest l l' : List Stmt} (h : LabelsOf forest l) (h' : LabelsOf forest l') :
    l' = l := by
  induction h generalizing l' with
  | nil => cases h'; rfl
  | switchS _ ih =>
    cases h' with
    | switchS h' => exact ih h'
    | label hs _ => exact absurd rfl (not_switch_of_label hs _ _ _)
    | other _ hne _ => exact absurd rfl (hne _ _ _)
  | label hs _ ih =>
    cases h' with
    | switchS h' => exact absurd rfl (not_switch_of_label hs _ _ _)
    | label _ h' => rw [ih h']
    | other hn _ _ => exact absurd hs hn
  | other hn hne _ ih =>
    cases h' with
    | switchS h' => exact absurd rfl (hne _ _ _)
    | label hs _ => exact absurd hs hn
    | other _ _ h' => exact ih h'

/-- Without default labels Clang's list is in the order of the source. -/
theorem labelsOf_cases {forest l : List Stmt} (h : LabelsOf forest l) (hd : ∀ x, .defaultS x ∉ l) :
    forest.flatMap ownLabels = l := by
  induction h with
  | nil => rfl
  | switchS _ ih => exact ih hd
  | @label s r l hs _ ih =>
    have hnd : ∀ x, s ≠ .defaultS x := fun x hx => hd x (by rw [hx]; simp)
    rw [List.flatMap_cons, ownLabels_eq s (not_switch_of_label hs) hnd,
      if_pos ((caseLabel_iff s).2 hs), List.append_assoc, ← List.flatMap_append,
      ih fun x hx => hd x (by simp [hx])]
    rfl
  | @other s r l hs hne _ ih =>
    have hnd : ∀ x, s ≠ .defaultS x := fun x hx => hs (.inr ⟨x, hx⟩)
    rw [List.flatMap_cons, ownLabels_eq s hne hnd, if_neg (fun h => hs ((caseLabel_iff s).1 h)),
      List.nil_append, ← List.flatMap_append, ih hd]

/-- A single default label is in Clang's list behind the labels of its own statement. -/
theorem labelsOf_default {forest l : List Stmt} (h : LabelsOf forest l) (pre rest : List Stmt)
    (x : Stmt) (hl : l = pre ++ .defaultS x :: rest) (hd : ∀ y, .defaultS y ∉ pre ++ rest) :
    ∃ inside after, LabelsOf [x] inside ∧ rest = inside ++ after ∧
      forest.flatMap ownLabels = pre ++ (inside ++ .defaultS x :: after) := by
  induction h generalizing pre with
  | nil => simp at hl
  | switchS _ ih => exact ih pre hl hd
  | @label s r l hs hrec ih =>
    cases pre with
    | nil =>
      simp only [List.nil_append, List.cons.injEq] at hl
      obtain ⟨rfl, rfl⟩ := hl
      have hcases := labelsOf_cases hrec (by simpa using hd)
      obtain ⟨inside, hin⟩ := labelsOf_exists [x]
      have hsub : ∀ y, .defaultS y ∉ inside := by
        intro y hy
        have h1 : Stmt.defaultS y ∈ [x].flatMap ownLabels := (labelsOf_perm hin).mem_iff.2 hy
        refine hd y ?_
        rw [List.nil_append, ← hcases, List.flatMap_append]
        exact List.mem_append_left _ h1
      have hin' := labelsOf_cases hin hsub
      have hx : Stmt.kids (.defaultS x) = [x] := rfl
      rw [hx, List.flatMap_append, hin'] at hcases
      refine ⟨inside, r.flatMap ownLabels, hin, hcases.symm, ?_⟩
      simp only [List.flatMap_cons, List.flatMap_nil, List.append_nil] at hin'
      rw [List.flatMap_cons, ownLabels, hin', List.append_assoc]
      rfl
    | cons p pre =>
      simp only [List.cons_append, List.cons.injEq] at hl
      obtain ⟨rfl, rfl⟩ := hl
      have hnd : ∀ y, s ≠ .defaultS y := fun y hy => hd y (by rw [hy]; simp)
      obtain ⟨inside, after, h1, h2, h3⟩ := ih pre rfl fun y hy => hd y (by
        rw [List.cons_append]; exact List.mem_cons_of_mem _ hy)
      refine ⟨inside, after, h1, h2, ?_⟩
      rw [List.flatMap_cons, ownLabels_eq s (not_switch_of_label hs) hnd,
        if_pos ((caseLabel_iff s).2 hs), List.append_assoc, ← List.flatMap_append, h3]
      rfl
  | @other s r l hs hne _ ih =>
    have hnd : ∀ x, s ≠ .defaultS x := fun x hx => hs (.inr ⟨x, hx⟩)
    obtain ⟨inside, after, h1, h2, h3⟩ := ih pre hl hd
    refine ⟨inside, after, h1, h2, ?_⟩
    rw [List.flatMap_cons, ownLabels_eq s hne hnd, if_neg (fun h => hs ((caseLabel_iff s).1 h)),
      List.nil_append, ← List.flatMap_append, h3]

theorem mem_ownLabels (b x : Stmt) : x ∈ ownLabels b ↔ ∃ ls, LabelsOf [b] ls ∧ x ∈ ls := by
  constructor
  · intro h
    obtain ⟨l, hl⟩ := labelsOf_exists [b]
    exact ⟨l, hl, (labelsOf_perm hl).mem_iff.1 (by simpa using h)⟩
  · rintro ⟨l, hl, hx⟩
    simpa using (labelsOf_perm hl).mem_iff.2 hx

theorem hasDefault_iff (l : List Stmt) : hasDefault l = true ↔ ∃ x, Stmt.defaultS x ∈ l := by
  induction l with
  | nil => simp [hasDefault]
  | cons s r ih =>
    cases s <;> simp [hasDefault, isDefault, ih]

/-! ## C49 -/

/-- The labels of every switch body are determined. -/
theorem C49_labels (body : Stmt) : ∃ ls, LabelsOf [body] ls ∧ ∀ ls', LabelsOf [body] ls' → ls' = ls :=
  (labelsOf_exists [body]).imp fun _ h => ⟨h, fun _ h' => labelsOf_unique h h'⟩

/-- The covered-switch rule reports exactly the switch statements over all values of an enumeration
that have a default label. -/
theorem C49_covered (s r : Stmt) : r ∈ coveredSwitchVisit s ↔
    r = s ∧ ∃ c body ls x, s = .switchS true c body ∧ LabelsOf [body] ls ∧ .defaultS x ∈ ls := by
  cases s with
  | switchS a c b =>
    simp only [coveredSwitchVisit]
    have hd : hasDefault (switchCaseList b) = true ↔ ∃ ls x, LabelsOf [b] ls ∧ .defaultS x ∈ ls := by
      rw [switchCaseList, hasDefault_iff]
      simp only [List.mem_reverse, mem_ownLabels]
      exact ⟨fun ⟨x, ls, h, h'⟩ => ⟨ls, x, h, h'⟩, fun ⟨ls, x, h, h'⟩ => ⟨x, ls, h, h'⟩⟩
    constructor
    · intro h
      split at h
      · next h' =>
        rw [Bool.and_eq_true, hd] at h'
        obtain ⟨⟨ls, x, h1, h2⟩, rfl⟩ := h'
        exact ⟨List.mem_singleton.1 h, c, b, ls, x, rfl, h1, h2⟩
      · cases h
    · rintro ⟨rfl, c', b', ls, x, h, h1, h2⟩
      cases h
      rw [if_pos (by rw [Bool.and_eq_true, hd]; exact ⟨⟨ls, x, h1, h2⟩, rfl⟩)]
      exact List.mem_singleton.2 rfl
  | _ => simp [coveredSwitchVisit]

/-- The missing-default rule reports exactly the switch statements not known to cover all values that
have no default label. -/
theorem C49_missing_default (s r : Stmt) : r ∈ missingDefaultVisit s ↔
    r = s ∧ ∃ c body ls, s = .switchS false c body ∧ LabelsOf [body] ls ∧ ∀ x, .defaultS x ∉ ls := by
  cases s with
  | switchS a c b =>
    simp only [missingDefaultVisit]
    have hd : hasDefault (switchCaseList b) = false ↔
        ∃ ls, LabelsOf [b] ls ∧ ∀ x, .defaultS x ∉ ls := by
      rw [← Bool.not_eq_true, switchCaseList, hasDefault_iff]
      simp only [List.mem_reverse, mem_ownLabels]
      constructor
      · intro h
        obtain ⟨ls, hls⟩ := labelsOf_exists [b]
        exact ⟨ls, hls, fun x hx => h ⟨x, ls, hls, hx⟩⟩
      · rintro ⟨ls, hls, h⟩ ⟨x, ls', hls', hx⟩
        rw [labelsOf_unique hls hls'] at hx
        exact h x hx
    cases a with
    | true => simp
    | false =>
      simp only [Bool.false_eq_true, if_false]
      constructor
      · intro h
        split at h
        · next h' =>
          rw [Bool.not_eq_true', hd] at h'
          obtain ⟨ls, h1, h2⟩ := h'
          exact ⟨List.mem_singleton.1 h, c, b, ls, rfl, h1, h2⟩
        · cases h
      · rintro ⟨rfl, c', b', ls, h, h1, h2⟩
        cases h
        rw [if_pos (by rw [Bool.not_eq_true', hd]; exact ⟨ls, h1, h2⟩)]
        exact List.mem_singleton.2 rfl
  | _ => simp [missingDefaultVisit]

theorem defaultNotLastLoop_iff (l : List Stmt) (hl : ∀ s ∈ l, CaseLabel s) (r : Stmt) :
    r ∈ defaultNotLastLoop l ↔ ∃ c cs rest x, r = .defaultS x ∧
      l = c :: cs ++ .defaultS x :: rest ∧ ∀ y ∈ c :: cs, ∃ v z, y = .caseS v z := by
  induction l with
  | nil => simp [defaultNotLastLoop]
  | cons a t ih =>
    cases t with
    | nil => simp [defaultNotLastLoop]
    | cons b t =>
      have ih' := ih fun s hs => hl s (List.mem_cons_of_mem _ hs)
      rcases hl a (by simp) with ⟨v, z, rfl⟩ | ⟨x, rfl⟩
      · simp only [defaultNotLastLoop, isCase, if_true, List.mem_append, ih']
        rcases hl b (by simp) with ⟨v', z', rfl⟩ | ⟨x, rfl⟩
        · simp only [isDefault, Bool.false_eq_true, if_false, List.not_mem_nil, false_or]
          constructor
          · rintro ⟨c, cs, rest, x, rfl, h, h'⟩
            refine ⟨_, c :: cs, rest, x, rfl, by rw [h]; rfl, ?_⟩
            intro y hy
            rcases List.mem_cons.1 hy with rfl | hy
            · exact ⟨v, z, rfl⟩
            · exact h' y hy
          · rintro ⟨c, cs, rest, x, rfl, h, h'⟩
            simp only [List.cons_append, List.cons.injEq] at h
            obtain ⟨rfl, h⟩ := h
            cases cs with
            | nil => simp at h
            | cons c' cs => exact ⟨c', cs, rest, x, rfl, h, fun y hy => h' y (List.mem_cons_of_mem _ hy)⟩
        · simp only [isDefault, if_true, List.mem_singleton]
          constructor
          · rintro (rfl | ⟨c, cs, rest, y, rfl, h, h'⟩)
            · exact ⟨_, [], t, x, rfl, rfl, by simp⟩
            · simp only [List.cons_append, List.cons.injEq] at h
              obtain ⟨rfl, h⟩ := h
              obtain ⟨_, _, h⟩ := h' _ List.mem_cons_self
              cases h
          · rintro ⟨c, cs, rest, y, rfl, h, h'⟩
            simp only [List.cons_append, List.cons.injEq] at h
            obtain ⟨rfl, h⟩ := h
            cases cs with
            | nil =>
              simp only [List.nil_append, List.cons.injEq] at h
              exact .inl h.1.symm
            | cons c' cs =>
              simp only [List.cons_append, List.cons.injEq] at h
              obtain ⟨rfl, h⟩ := h
              obtain ⟨_, _, h⟩ := h' (Stmt.defaultS x) (by simp)
              cases h
      · simp only [defaultNotLastLoop, isCase, Bool.false_eq_true, if_false, List.not_mem_nil,
          false_iff]
        rintro ⟨c, cs, rest, y, rfl, h, h'⟩
        simp only [List.cons_append, List.cons.injEq] at h
        obtain ⟨rfl, h⟩ := h
        obtain ⟨_, _, h⟩ := h' _ List.mem_cons_self
        cases h

theorem labelsOf_caseLabel {forest l : List Stmt} (h : LabelsOf forest l) : ∀ s ∈ l, CaseLabel s := by
  induction h with
  | nil => simp
  | switchS _ ih => exact ih
  | label hs _ ih =>
    intro y hy
    rcases List.mem_cons.1 hy with rfl | hy
    · exact hs
    · exact ih y hy
  | other _ _ _ ih => exact ih

theorem ownLabels_caseLabel {s x : Stmt} (h : x ∈ ownLabels s) : CaseLabel x := by
  obtain ⟨l, hl, hx⟩ := (mem_ownLabels _ _).1 h
  exact labelsOf_caseLabel hl x hx

/-- In a switch with one default label, the default-label-not-last rule reports exactly that label,
if there are more labels behind its statement. -/
theorem C49_default_not_last_partial (a : Bool) (c body x r : Stmt) (pre rest : List Stmt)
    (hl : LabelsOf [body] (pre ++ .defaultS x :: rest)) (hone : ∀ y, .defaultS y ∉ pre ++ rest) :
    r ∈ defaultNotLastVisit (.switchS a c body) ↔
      r = .defaultS x ∧ ∃ inside after, LabelsOf [x] inside ∧ rest = inside ++ after ∧ after ≠ [] := by
  obtain ⟨inside, after, h1, h2, h3⟩ := labelsOf_default hl pre rest x rfl hone
  simp only [List.flatMap_cons, List.flatMap_nil, List.append_nil] at h3
  simp only [defaultNotLastVisit, switchCaseList]
  rw [defaultNotLastLoop_iff _ (fun s hs => ownLabels_caseLabel (List.mem_reverse.1 hs)), h3]
  have hall := labelsOf_caseLabel hl
  have hafter : ∀ y ∈ after, ∃ v z, y = .caseS v z := by
    intro y hy
    rcases hall y (by rw [h2]; simp [hy]) with h | ⟨z, rfl⟩
    · exact h
    · exact absurd (by rw [h2]; simp [hy]) (hone z)
  constructor
  · rintro ⟨k, cs, tail, x', rfl, h, h'⟩
    have hmem : Stmt.defaultS x' ∈ (pre ++ (inside ++ Stmt.defaultS x :: after)).reverse := by
      rw [h]; simp
    have hx : x' = x := by
      simp only [List.mem_reverse, List.mem_append, List.mem_cons, Stmt.defaultS.injEq] at hmem
      rcases hmem with hm | hm | hm | hm
      · exact absurd (List.mem_append_left _ hm) (hone x')
      · exact absurd (by rw [h2]; simp [hm]) (hone x')
      · exact hm
      · exact absurd (by rw [h2]; simp [hm]) (hone x')
    subst hx
    refine ⟨rfl, inside, after, h1, h2, ?_⟩
    rintro rfl
    simp only [List.reverse_append, List.reverse_cons, List.reverse_nil, List.nil_append,
      List.cons_append, List.cons.injEq] at h
    obtain ⟨v, z, hz⟩ := h' k (by simp)
    rw [← h.1] at hz
    cases hz
  · rintro ⟨rfl, inside', after', h1', h2', hne⟩
    have hi : inside' = inside := labelsOf_unique h1 h1'
    subst hi
    have ha : after = after' := List.append_cancel_left (h2.symm.trans h2')
    subst ha
    obtain ⟨k, cs, hk⟩ : ∃ k cs, after.reverse = k :: cs := by
      cases hr : after.reverse with
      | nil => exact absurd (List.reverse_eq_nil_iff.1 hr) hne
      | cons k cs => exact ⟨k, cs, rfl⟩
    refine ⟨k, cs, (pre ++ inside').reverse, x, rfl, ?_, ?_⟩
    · simp only [List.reverse_append, List.reverse_cons, hk, List.append_assoc, List.cons_append,
        List.nil_append]
    · intro y hy
      rw [← hk] at hy
      exact hafter y (List.mem_reverse.1 hy)

/-- Only default labels of the switch are reported; a switch without one is not. -/
theorem C49_default_only (s r : Stmt) (h : r ∈ defaultNotLastVisit s) :
    ∃ a c body x ls, s = .switchS a c body ∧ r = .defaultS x ∧ LabelsOf [body] ls ∧ r ∈ ls := by
  cases s with
  | switchS a c b =>
    simp only [defaultNotLastVisit, switchCaseList] at h
    rw [defaultNotLastLoop_iff _ (fun s hs => ownLabels_caseLabel (List.mem_reverse.1 hs))] at h
    obtain ⟨k, cs, tail, x, rfl, h, -⟩ := h
    have hmem : Stmt.defaultS x ∈ (ownLabels b).reverse := by rw [h]; simp
    obtain ⟨ls, hls, hx⟩ := (mem_ownLabels _ _).1 (List.mem_reverse.1 hmem)
    exact ⟨a, c, b, x, ls, rfl, rfl, hls, hx⟩
  | _ => simp [defaultNotLastVisit] at h

/-- `switch (a) { default: case 1: f(); }`: the default label is not the last one, but it is not
reported, because the `case` belongs to the statement behind it.
`switch (a) { default: f(); case 1: f(); }` is reported. -/
theorem C49_default_not_last_witness :
    let x : Stmt := .call (.declRef ⟨0, []⟩) []
    let inner : Stmt := .caseS (.intLit 1) x
    LabelsOf [.compound [.defaultS inner]] [.defaultS inner, inner] ∧
      defaultNotLastVisit (.switchS false x (.compound [.defaultS inner])) = [] ∧
      defaultNotLastVisit (.switchS false x (.compound [.defaultS x, inner])) = [.defaultS x] := by
  intro x inner
  refine ⟨?_, rfl, rfl⟩
  have hx : LabelsOf [Stmt.call (.declRef ⟨0, []⟩) []] [] :=
    .other (by rintro (⟨_, _, h⟩ | ⟨_, h⟩) <;> cases h) (by rintro _ _ _ h; cases h)
      (.other (by rintro (⟨_, _, h⟩ | ⟨_, h⟩) <;> cases h) (by rintro _ _ _ h; cases h) .nil)
  exact .other (by rintro (⟨_, _, h⟩ | ⟨_, h⟩) <;> cases h) (by rintro _ _ _ h; cases h)
    (.label (.inr ⟨_, rfl⟩) (.label (.inl ⟨_, _, rfl⟩)
      (.other (by rintro (⟨_, _, h⟩ | ⟨_, h⟩) <;> cases h) (by rintro _ _ _ h; cases h) hx)))

/-- At most one report for a switch. -/
theorem C49_default_once (s : Stmt) : (defaultNotLastVisit s).length ≤ 1 := by
  have : ∀ l, (∀ s ∈ l, CaseLabel s) → (defaultNotLastLoop l).length ≤ 1 := by
    intro l
    induction l with
    | nil => simp [defaultNotLastLoop]
    | cons a t ih =>
      cases t with
      | nil => simp [defaultNotLastLoop]
      | cons b t =>
        intro hl
        simp only [defaultNotLastLoop]
        split
        · rcases hl b (by simp) with ⟨v', z', rfl⟩ | ⟨x, rfl⟩
          · simpa [isDefault] using ih fun s hs => hl s (List.mem_cons_of_mem _ hs)
          · cases t <;> simp [isDefault, defaultNotLastLoop, isCase]
        · simp
  cases s with
  | switchS a c b =>
    exact this _ fun s hs => ownLabels_caseLabel (List.mem_reverse.1 hs)
  | _ => simp [defaultNotLastVisit]

open Classical in
/-- The too-few-branches rule reports exactly the switch statements with fewer `case` labels in them,
those of inner switch statements included, than the limit that is configured, or 3. -/
theorem C49_too_few (cfg cfg' : Configurations) (limit : Int)
    (hlim : cfg.intForKey "MINIMUM_CASES_IN_SWITCH".toList 3 = .ok (limit, cfg')) (s : Stmt) :
    ∃ l, tooFewBranchesVisit cfg s = .ok l ∧ ∀ r, r ∈ l ↔
      r = s ∧ ∃ a c body n, s = .switchS a c body ∧
        Tally (fun x => if ∃ v z, x = .caseS v z then 1 else 0) Stmt.kids [s] n ∧ (n : Int) < limit := by
  have uniq : ∀ (w : Stmt → Nat) (l : List Stmt) m n, Tally w Stmt.kids l m → Tally w Stmt.kids l n →
      m = n := by
    intro w l m n h
    induction h generalizing n with
    | nil => intro h; cases h; rfl
    | cons _ _ ih1 ih2 =>
      intro h
      cases h with
      | cons h1 h2 => rw [ih1 _ h1, ih2 _ h2]
  have hc := tally_filter isCase (fun x => ∃ v z, x = .caseS v z)
    (by intro s; cases s <;> simp [isCase]) s
  cases s with
  | switchS a c b =>
    simp only [tooFewBranchesVisit, hlim]
    refine ⟨_, rfl, fun r => ?_⟩
    split
    · next h =>
      rw [List.mem_singleton]
      exact ⟨fun hr => ⟨hr, a, c, b, _, rfl, hc, h⟩, fun h => h.1⟩
    · next h =>
      simp only [List.not_mem_nil, false_iff]
      rintro ⟨-, -, -, -, n, -, hn, hlt⟩
      rw [uniq _ _ _ _ hn hc] at hlt
      exact h hlt
  | _ => exact ⟨[], rfl, fun r => by simp⟩

/-! ### Missing break -/

theorem isExitNode_iff (s : Stmt) : isExitNode s = true ↔ LeavingStmt s := by
  cases s <;> simp [isExitNode, LeavingStmt]

theorem findBreak_iff (s : Stmt) : findBreak s = true ↔ HasLeaving s := by
  simp only [findBreak, List.any_eq_true, isExitNode_iff, HasLeaving, below_nodes]

theorem isBreakingPoint_iff (s : Stmt) : isBreakingPoint s = true ↔ EndsSection s := by
  cases s <;> simp [isBreakingPoint, EndsSection, LeavingStmt, findBreak_iff]

theorem not_ends_of_label {s : Stmt} (h : CaseLabel s) : ¬ EndsSection s := by
  rcases h with ⟨v, x, rfl⟩ | ⟨x, rfl⟩ <;> simp [EndsSection, LeavingStmt]

/-- The list begins with a section that runs into a label. -/
def IntoLabel (body : List Stmt) : Prop :=
  ∃ mid l' post, body = mid ++ l' :: post ∧ (∀ x ∈ mid, ¬ CaseLabel x ∧ ¬ EndsSection x) ∧ CaseLabel l'

/-- The list is one section that is not ended. -/
def AllOpen (body : List Stmt) : Prop := ∀ x ∈ body, ¬ CaseLabel x ∧ ¬ EndsSection x

theorem runsIntoNext_cons (s : Stmt) (rest : List Stmt) : RunsIntoNext (s :: rest) ↔
    (CaseLabel s ∧ ¬ HasLeaving s ∧ IntoLabel rest) ∨ RunsIntoNext rest := by
  constructor
  · rintro ⟨pre, l, mid, l', post, h, ⟨h1, h2, h3⟩, h4⟩
    cases pre with
    | nil =>
      simp only [List.nil_append, List.cons.injEq] at h
      obtain ⟨rfl, rfl⟩ := h
      exact .inl ⟨h1, h2, mid, l', post, rfl, h3, h4⟩
    | cons p pre =>
      simp only [List.cons_append, List.cons.injEq] at h
      obtain ⟨rfl, rfl⟩ := h
      exact .inr ⟨pre, l, mid, l', post, rfl, ⟨h1, h2, h3⟩, h4⟩
  · rintro (⟨h1, h2, mid, l', post, rfl, h3, h4⟩ | ⟨pre, l, mid, l', post, rfl, h⟩)
    · exact ⟨[], s, mid, l', post, rfl, ⟨h1, h2, h3⟩, h4⟩
    · exact ⟨s :: pre, l, mid, l', post, rfl, h⟩

theorem lastOpen_cons (s : Stmt) (rest : List Stmt) : LastOpen (s :: rest) ↔
    (CaseLabel s ∧ ¬ HasLeaving s ∧ AllOpen rest) ∨ LastOpen rest := by
  constructor
  · rintro ⟨pre, l, r, h, ⟨h1, h2, h3⟩⟩
    cases pre with
    | nil =>
      simp only [List.nil_append, List.cons.injEq] at h
      obtain ⟨rfl, rfl⟩ := h
      exact .inl ⟨h1, h2, h3⟩
    | cons p pre =>
      simp only [List.cons_append, List.cons.injEq] at h
      obtain ⟨rfl, rfl⟩ := h
      exact .inr ⟨pre, l, r, rfl, ⟨h1, h2, h3⟩⟩
  · rintro (⟨h1, h2, h3⟩ | ⟨pre, l, r, rfl, h⟩)
    · exact ⟨[], s, rest, rfl, ⟨h1, h2, h3⟩⟩
    · exact ⟨s :: pre, l, r, rfl, h⟩

theorem intoLabel_cons (s : Stmt) (rest : List Stmt) : IntoLabel (s :: rest) ↔
    CaseLabel s ∨ (¬ CaseLabel s ∧ ¬ EndsSection s ∧ IntoLabel rest) := by
  constructor
  · rintro ⟨mid, l', post, h, h1, h2⟩
    cases mid with
    | nil =>
      simp only [List.nil_append, List.cons.injEq] at h
      obtain ⟨rfl, rfl⟩ := h
      exact .inl h2
    | cons m mid =>
      simp only [List.cons_append, List.cons.injEq] at h
      obtain ⟨rfl, rfl⟩ := h
      have := h1 s (by simp)
      exact .inr ⟨this.1, this.2, mid, l', post, rfl, fun x hx => h1 x (by simp [hx]), h2⟩
  · rintro (h | ⟨h1, h2, mid, l', post, rfl, h3, h4⟩)
    · exact ⟨[], s, rest, rfl, by simp, h⟩
    · refine ⟨s :: mid, l', post, rfl, ?_, h4⟩
      intro x hx
      rcases List.mem_cons.1 hx with rfl | hx
      · exact ⟨h1, h2⟩
      · exact h3 x hx

theorem allOpen_cons (s : Stmt) (rest : List Stmt) : AllOpen (s :: rest) ↔
    ¬ CaseLabel s ∧ ¬ EndsSection s ∧ AllOpen rest := by
  simp [AllOpen, and_assoc]

/-- The loop of the rule, in both states. -/
theorem missingBreakLoop_spec (body : List Stmt) (b : Bool) :
    (missingBreakLoop b body = 2 ↔ (b = false ∧ IntoLabel body) ∨ RunsIntoNext body) ∧
    (missingBreakLoop b body = 1 ↔ ¬((b = false ∧ IntoLabel body) ∨ RunsIntoNext body) ∧
      ((b = false ∧ AllOpen body) ∨ LastOpen body)) ∧ missingBreakLoop b body ≤ 2 := by
  induction body generalizing b with
  | nil =>
    have h1 : ¬ RunsIntoNext [] := by rintro ⟨pre, l, mid, l', post, h, -⟩; simp at h
    have h2 : ¬ IntoLabel [] := by rintro ⟨mid, l', post, h, -⟩; simp at h
    have h3 : ¬ LastOpen [] := by rintro ⟨pre, l, r, h, -⟩; simp at h
    have h4 : AllOpen [] := by intro x hx; cases hx
    cases b <;> simp [missingBreakLoop, h1, h2, h3, h4]
  | cons s rest ih =>
    rw [runsIntoNext_cons, lastOpen_cons, intoLabel_cons, allOpen_cons]
    by_cases hb : EndsSection s
    · have hl : ¬ CaseLabel s := fun h => not_ends_of_label h hb
      have hloop : missingBreakLoop b (s :: rest) = missingBreakLoop true rest := by
        simp [missingBreakLoop, (isBreakingPoint_iff s).2 hb]
      have := ih true
      rw [hloop]
      simpa [hb, hl] using this
    · have hb' : ¬ isBreakingPoint s = true := fun h => hb ((isBreakingPoint_iff s).1 h)
      by_cases hl : CaseLabel s
      · cases b with
        | false =>
          have hloop : missingBreakLoop false (s :: rest) = 2 := by
            simp [missingBreakLoop, hb', (caseLabel_iff s).2 hl]
          rw [hloop]
          simp [hl]
        | true =>
          have hloop : missingBreakLoop true (s :: rest) = missingBreakLoop (findBreak s) rest := by
            simp [missingBreakLoop, hb', (caseLabel_iff s).2 hl]
          rw [hloop]
          by_cases hf : HasLeaving s
          · have := ih true
            rw [(findBreak_iff s).2 hf]
            simpa [hl, hf] using this
          · have hf' : findBreak s = false := by
              rw [← Bool.not_eq_true, findBreak_iff]; exact hf
            have := ih false
            rw [hf']
            simpa [hl, hf] using this
      · have hl' : ¬ isSwitchLabel s = true := fun h => hl ((caseLabel_iff s).1 h)
        have hloop : missingBreakLoop b (s :: rest) = missingBreakLoop b rest := by
          simp [missingBreakLoop, hb', hl']
        have := ih b
        rw [hloop]
        simpa [hl, hb] using this

/-- The missing-break rule reports a switch exactly when the section of one of its labels is not
ended: twice if it runs into the next label, once if only the last one is not ended. -/
theorem C49_missing_break (a : Bool) (c : Stmt) (body : List Stmt) :
    let s : Stmt := .switchS a c (.compound body)
    (missingBreakVisit s = [s, s] ↔ RunsIntoNext body) ∧
    (missingBreakVisit s = [s] ↔ ¬ RunsIntoNext body ∧ LastOpen body) ∧
    (missingBreakVisit s = [] ↔ ¬ RunsIntoNext body ∧ ¬ LastOpen body) := by
  intro s
  have h := missingBreakLoop_spec body true
  simp only [Bool.true_eq_false, false_and, false_or] at h
  obtain ⟨h2, h1, hle⟩ := h
  have e : missingBreakVisit s = List.replicate (missingBreakLoop true body) s := rfl
  rw [e]
  rcases (by omega : missingBreakLoop true body = 0 ∨ missingBreakLoop true body = 1 ∨
    missingBreakLoop true body = 2) with h | h | h
  · have h3 : ¬ RunsIntoNext body := fun hr => by have := h2.2 hr; omega
    have h4 : ¬ LastOpen body := fun hl => by have := h1.2 ⟨h3, hl⟩; omega
    simp [h, h3, h4]
  · obtain ⟨h3, h4⟩ := h1.1 h
    simp [h, h3, h4, List.replicate]
  · have h3 := h2.1 h
    simp [h, h3, List.replicate]

/-- Nothing but a switch with a block is reported. -/
theorem C49_missing_break_only (s : Stmt) (h : missingBreakVisit s ≠ []) :
    ∃ a c body, s = .switchS a c (.compound body) := by
  cases s with
  | switchS a c b =>
    cases b with
    | compound body => exact ⟨a, c, body, rfl⟩
    | _ => simp [missingBreakVisit] at h
  | _ => simp [missingBreakVisit] at h

/-- `case 1: x; case 2: break;` is reported twice; `case 1: break; case 2: x;` once. -/
example :
    let x : Stmt := .call (.declRef ⟨0, []⟩) []
    let s : Stmt := .switchS false x (.compound [.caseS (.intLit 1) x, .caseS (.intLit 2) .breakS])
    let s' : Stmt := .switchS false x (.compound [.caseS (.intLit 1) .breakS, .caseS (.intLit 2) x])
    missingBreakVisit s = [s, s] ∧ missingBreakVisit s' = [s'] := ⟨rfl, rfl⟩

/-- What the rule takes for a break need not be one: `case 1: while (x) break; case 2: ;` runs from
the first label into the second and is only reported for the last section; and `case 1: goto l;` is
reported although it does not run on. -/
theorem C49_missing_break_witness :
    let x : Stmt := .call (.declRef ⟨0, []⟩) []
    let s : Stmt := .switchS false x (.compound
      [.caseS (.intLit 1) (.whileS x .breakS), .caseS (.intLit 2) .nullS, .breakS])
    let s' : Stmt := .switchS false x (.compound [.caseS (.intLit 1) (.gotoS ['l']), .caseS (.intLit 2) .breakS])
    missingBreakVisit s = [] ∧ missingBreakVisit s' = [s', s'] := ⟨rfl, rfl⟩

/-! ## C65 -/

/-- The non-case-label rule reports exactly the labels inside of a switch. -/
theorem C65_reports_exactly (s r : Stmt) : r ∈ nonCaseLabelVisit s ↔
    (∃ a c b, s = .switchS a c b) ∧ Below [s] r ∧ ∃ n x, r = .labelS n x := by
  have hl : isLabel r = true ↔ ∃ n x, r = .labelS n x := by cases r <;> simp [isLabel]
  cases s <;> simp [nonCaseLabelVisit, hl, below_nodes]

open Classical in
/-- As many reports for a switch as labels in it: a label in nested switch statements is reported for
each of them. -/
theorem C65_count (a : Bool) (c b : Stmt) :
    Tally (fun s => if ∃ n x, s = .labelS n x then 1 else 0) Stmt.kids [.switchS a c b]
      (nonCaseLabelVisit (.switchS a c b)).length :=
  tally_filter isLabel _ (by intro s; cases s <;> simp [isLabel]) _

/-- The labels of a switch are reported in the order of the source. -/
theorem C65_order (a : Bool) (c b : Stmt) :
    Gathers (fun s => ∃ n x, s = .labelS n x) [.switchS a c b] (nonCaseLabelVisit (.switchS a c b)) :=
  gathers_filter isLabel _ (by intro s; cases s <;> simp [isLabel]) _

/-- `switch (x) { switch (x) { l: ; } }` is reported twice. -/
example : reportOver nonCaseLabelVisit (.switchS false (.intLit 0) (.compound
    [.switchS false (.intLit 0) (.compound [.labelS ['l'] .nullS])])) =
    [.labelS ['l'] .nullS, .labelS ['l'] .nullS] := rfl

end Oclint
