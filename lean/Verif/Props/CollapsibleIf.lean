import Verif.Model.RulesControl
import Verif.Lemmas.Semantics

/-!
# Advice of the rules about `if` and loops

C41, C42 and C45.  Behaviour is that of `Spec/Semantics.lean`: `Same` statements can be entered at
the same labels and give the same results; `Spec.body_same` carries this over to whole functions.
-/

namespace Oclint

open Spec

set_option linter.unusedSimpArgs false

/-! ## C41 -/

theorem compoundContainsOnlyOneIf_iff (body : List Stmt) :
    compoundContainsOnlyOneIf body = true ↔ ∃ p c t e, body = [.ifS p c t e] := by
  constructor
  · intro h
    simp only [compoundContainsOnlyOneIf, Bool.and_eq_true, decide_eq_true_eq] at h
    obtain ⟨h1, h2⟩ := h
    match body, h1 with
    | [x], _ => cases x <;> simp at h2 ⊢
  · rintro ⟨p, c, t, e, rfl⟩; rfl

/-- The collapsible-if rule reports an `if` exactly when it has no `else`, its branch is another
`if` without `else`, or a block of only such an `if`.  The `if` itself is reported, once. -/
theorem C41_reports_exactly (s x : Stmt) : x ∈ collapsibleIfVisit s ↔
    x = s ∧ ∃ p c t p' c' t', s = .ifS p c t none ∧
      (t = .ifS p' c' t' none ∨ t = .compound [.ifS p' c' t' none]) := by
  constructor
  · intro h
    cases s with
    | ifS p c t els =>
      simp only [collapsibleIfVisit] at h
      cases hin : getInnerIf t with
      | none => simp [hin] at h
      | some inner =>
        simp only [hin] at h
        split at h
        · next hc =>
          simp only [List.mem_singleton] at h
          refine ⟨h, ?_⟩
          simp only [Bool.not_eq_true', checkElseBranch, Bool.or_eq_false_iff,
            Option.isSome_eq_false_iff, Option.isNone_iff_eq_none] at hc
          obtain ⟨hels, hin'⟩ := hc
          subst hels
          cases t <;> simp [getInnerIf] at hin
          · next body =>
            obtain ⟨hb, hh⟩ := hin
            obtain ⟨p', c', t', e', rfl⟩ := (compoundContainsOnlyOneIf_iff _).mp hb
            simp only [List.head?_cons, Option.some.injEq] at hh
            subst hh
            simp only [Option.isSome_eq_false_iff, Option.isNone_iff_eq_none] at hin'
            subst hin'
            exact ⟨p, c, _, p', c', t', rfl, .inr rfl⟩
          · next p' c' t' e' =>
            subst hin
            simp only [Option.isSome_eq_false_iff, Option.isNone_iff_eq_none] at hin'
            subst hin'
            exact ⟨p, c, _, p', c', t', rfl, .inl rfl⟩
        · simp at h
    | _ => simp [collapsibleIfVisit] at h
  · rintro ⟨rfl, p, c, t, p', c', t', rfl, (rfl | rfl)⟩
    · simp [collapsibleIfVisit, getInnerIf, checkElseBranch]
    · simp [collapsibleIfVisit, getInnerIf, checkElseBranch, compoundContainsOnlyOneIf]

/-- The rule reports at most once for a node. -/
theorem C41_reports_once (s : Stmt) : (collapsibleIfVisit s).length ≤ 1 := by
  unfold collapsibleIfVisit
  split
  · split
    · split <;> simp
    · simp
  · simp

section
variable {σ V : Type} (W : World σ V)

/-- The advice: one `if` with both conditions joined by `&&` does the same, in every state and from
every label, provided the inner `if` declares nothing in its condition. -/
theorem C41_collapse_same_partial (p : Option Stmt) (c c' t' t : Stmt)
    (ht : t = .ifS none c' t' none ∨ t = .compound [.ifS none c' t' none]) :
    Same W (.ifS p c t none) (.ifS p (.binary .land c c') t' none) := by
  have hrun : ∀ e s o s', Run W e t s o s' ↔ Run W e (.ifS none c' t' none) s o s' := by
    rcases ht with rfl | rfl
    · exact fun _ _ _ _ => Iff.rfl
    · intro e s o s'
      rw [run_compound, runL_cons]
      split
      · simp only [runL_nil]
        constructor
        · rintro (⟨h, _⟩ | ⟨s1, h, _, rfl, rfl⟩) <;> exact h
        · intro h
          by_cases ho : o = .normal
          · subst ho; exact .inr ⟨_, h, by simp⟩
          · exact .inl ⟨h, ho⟩
      · next hne =>
        rw [runL_nil]
        constructor
        · rintro ⟨rfl, _⟩; simp at hne
        · intro h; exact absurd (run_hasEntry h) hne
  have hent : ∀ e, hasEntry W e t = hasEntry W e (.ifS none c' t' none) := by
    rcases ht with rfl | rfl
    · exact fun _ => rfl
    · intro e; cases e <;> simp [hasEntry, hasEntryL, hasEntryO]
  refine ⟨fun e => ?_, fun e s o s' => ?_⟩
  · simp only [hasEntry, hent, hasEntryO]; cases e <;> simp
  · by_cases he : e = .start
    · subst he
      simp only [run_if_branch, hrun, runO_none, eval, Res.andThen]
      apply or_congr Iff.rfl
      refine exists_congr fun s1 => and_congr_right fun _ => ?_
      rcases eval W c s1 with _ | ⟨v, s2⟩ | s2
      · simp [branch]
      · cases hv : W.truth v with
        | false => simp [branch, hv, W.truth_ofBool]
        | true =>
          rcases hc : eval W c' s2 with _ | ⟨w, s3⟩ | s3 <;>
            simp [branch, hv, hc, W.truth_ofBool] <;> intro h1 <;> simp [h1]
      · simp [branch]
    · simp only [run_if_enter he, hrun, hent]
      simp only [hasEntry, hasEntryO]
      cases e <;> simp_all

end

/-- The premise about the inner `if` is needed: `if (a) { if (x = 1; b) ; }` is reported, and
`if (a && b) ;` is not the same. -/
theorem C41_inner_init_witness :
    let x : DeclId := ⟨0, []⟩
    let b : Stmt := .boolLit true
    let inner : Stmt := .ifS (some (.binary .assign (.declRef x) (.intLit 1))) b .nullS none
    let s : Stmt := .ifS none b (.compound [inner]) none
    s ∈ collapsibleIfVisit s ∧ ¬ Same machine s (.ifS none (.binary .land b b) .nullS none) := by
  intro x b inner s
  refine ⟨(C41_reports_exactly _ _).mpr ⟨rfl, _, _, _, _, _, _, rfl, .inr rfl⟩, fun h => ?_⟩
  have h1 : Run machine .start s 0 .normal 1 := by
    refine .ifTrue (v := 1) (s2 := 0) .none rfl rfl (.compound (.go (s1 := 1) (hasEntry_start _) ?_ .nil))
    exact .ifTrue (s1 := 1) (v := 1) (s2 := 1) (.some (.expr (v := 1) rfl rfl)) rfl rfl .null
  have h2 := (h.2 _ _ _ _).mp h1
  rw [run_if_start] at h2
  simp only [runO_none] at h2
  rcases h2 with ⟨_, h⟩ | ⟨s1, ⟨_, rfl⟩, (⟨v, s2, h1, _, h3⟩ | ⟨v, s2, h1, _, h3⟩ | ⟨_, h⟩)⟩
  · exact absurd rfl h
  · cases h1
    cases h3 with
    | expr h => simp [isExpr] at h
    | other h => simp [isOther] at h
  · cases h1; simp at h3
  · simp at h

example : collapsibleIfVisit (.ifS none (.declRef ⟨0, []⟩)
    (.compound [.ifS none (.declRef ⟨1, []⟩) .nullS none]) none) ≠ [] := by
  simp [collapsibleIfVisit, getInnerIf, checkElseBranch, compoundContainsOnlyOneIf]
example : collapsibleIfVisit (.ifS none (.declRef ⟨0, []⟩)
    (.compound [.ifS none (.declRef ⟨1, []⟩) .nullS none, .breakS]) none) = [] := by
  simp [collapsibleIfVisit, getInnerIf, compoundContainsOnlyOneIf]

/-! ## C42 -/

/-- The rule reports exactly the loops `for (; c; ) body`. -/
theorem C42_reports_exactly (s x : Stmt) : x ∈ forShouldBeWhileVisit s ↔
    x = s ∧ ∃ c b, s = .forS none (some c) none b ∧ c ≠ .nullS := by
  cases s with
  | forS i c n b =>
    cases c with
    | none => simp [forShouldBeWhileVisit]
    | some c =>
      cases i <;> cases n <;> cases c <;> simp [forShouldBeWhileVisit]
  | _ => simp [forShouldBeWhileVisit]

section
variable {σ V : Type} (W : World σ V)

/-- The advice: `for (; c; ) body` and `while (c) body` are the same. -/
theorem C42_for_while_same (s : Stmt) (h : s ∈ forShouldBeWhileVisit s) :
    ∃ c b, s = .forS none (some c) none b ∧ Same W s (.whileS c b) := by
  obtain ⟨_, c, b, rfl, _⟩ := (C42_reports_exactly s s).mp h
  refine ⟨c, b, rfl, fun e => by simp [hasEntry], fun e s o s' => ⟨fun h => ?_, fun h => ?_⟩⟩
  · refine for_ind (P := fun i e s o s' => i = none → Run W e (.whileS c b) s o s')
      (Q := fun o s o' s' => WhileRest W c b o s o' s') ?_ ?_ ?_ ?_ ?_ ?_ ?_ ?_ ?_ ?_ ?_ h rfl
    · intro _ _ _ _ _ _ _ h; simp at h
    · intro _ _ _ _ _ _ h; simp at h
    · intro x _ _ _ hx h1 h2 _; cases hx; exact .whileFalse h1 h2
    · intro x _ _ hx h1 _; cases hx; exact .whileThrow h1
    · intro x _ _ _ _ _ _ _ hx h1 h2 h3 h4 _; cases hx; exact .whileTrue h1 h2 h3 h4
    · intro _ _ _ _ _ hx; simp at hx
    · intro _ _ _ _ _ _ _ h1 h2 h3 h4 _; exact .whileEnter h1 h2 h3 h4
    · intro _ _ _ _ _ h1 h2; exact .again h1 (h2 rfl)
    · intro _ _ _ _ _ _ _ hn; simp at hn
    · intro _ _ _ _ hn; simp at hn
    · intro _ _ _ h1; exact .leave h1
  · refine while_ind (P := fun e s o s' => Run W e (.forS none (some c) none b) s o s')
      (Q := fun o s o' s' => ForRest W (some c) none b o s o' s') ?_ ?_ ?_ ?_ ?_ ?_ h
    · intro _ _ _ h1 h2; exact .forFalse h1 h2
    · intro _ _ h1; exact .forThrow h1
    · intro _ _ _ _ _ _ _ h1 h2 h3 h4; exact .forTrue h1 h2 h3 h4
    · intro _ _ _ _ _ _ h1 h2 h3 h4; exact .forEnter h1 h2 h3 h4
    · intro _ _ _ _ h1 h2; exact .again h1 h2
    · intro _ _ _ h1; exact .leave h1

end

example : forShouldBeWhileVisit (.forS none (some (.declRef ⟨0, []⟩)) none .nullS) ≠ [] := by
  simp [forShouldBeWhileVisit]
example : forShouldBeWhileVisit (.forS none (some (.declRef ⟨0, []⟩)) (some (.declRef ⟨0, []⟩)) .nullS)
    = [] := by simp [forShouldBeWhileVisit]

/-! ## C45 -/

/-- Is the condition a negation, and what is negated? -/
def Negated (cond pos : Stmt) : Prop :=
  cond = .unary .lnot pos ∨ ∃ l r, cond = .binary .ne l r ∧ pos = .binary .eq l r

theorem isInvertedLogic_iff (c : Stmt) : isInvertedLogic c = true ↔ ∃ p, Negated c p := by
  constructor
  · intro h
    cases c with
    | binary op l r => exact ⟨_, .inr ⟨l, r, by simpa [isInvertedLogic] using h, rfl⟩⟩
    | unary op x => exact ⟨x, .inl (by simpa [isInvertedLogic] using h)⟩
    | _ => simp [isInvertedLogic] at h
  · rintro ⟨p, (rfl | ⟨l, r, rfl, _⟩)⟩ <;> simp [isInvertedLogic]

/-- The inverted-logic rule reports exactly the negated conditions of an `if` with `else` and of
`?:`. -/
theorem C45_reports_exactly (s x : Stmt) : x ∈ invertedLogicVisit s ↔
    (∃ p, Negated x p) ∧
      ((∃ i t e, s = .ifS i x t (some e)) ∨ ∃ t f, s = .condOp x t f) := by
  cases s with
  | ifS i c t e =>
    cases e with
    | none => simp [invertedLogicVisit]
    | some e =>
      simp only [invertedLogicVisit, Option.isSome_some, Bool.true_and, Stmt.ifS.injEq,
        Option.some.injEq, reduceCtorEq, exists_const, or_false]
      split
      · next h => simp; constructor
                  · rintro rfl; exact ⟨(isInvertedLogic_iff _).mp h, rfl⟩
                  · rintro ⟨_, rfl⟩; rfl
      · next h => simp; rintro p hp rfl; exact h ((isInvertedLogic_iff _).mpr ⟨p, hp⟩)
  | condOp c t f =>
    simp only [invertedLogicVisit, Stmt.condOp.injEq, reduceCtorEq, exists_const, false_or]
    split
    · next h => simp; constructor
                · rintro rfl; exact ⟨(isInvertedLogic_iff _).mp h, rfl⟩
                · rintro ⟨_, rfl⟩; rfl
    · next h => simp; rintro p hp rfl; exact h ((isInvertedLogic_iff _).mpr ⟨p, hp⟩)
  | _ => simp [invertedLogicVisit]

section
variable {σ V : Type} (W : World σ V)

/-- A negated condition chooses the other branch. -/
theorem eval_negated {c p : Stmt} (h : Negated c p) (s : σ) :
    ∀ (T F : σ → Prop) (o : Out V) (s' : σ),
      branch W (eval W c s) T F o s' ↔ branch W (eval W p s) F T o s' := by
  intro T F o s'
  rcases h with rfl | ⟨l, r, rfl, rfl⟩
  · simp only [eval]
    rcases eval W p s with _ | ⟨v, s2⟩ | s2
    · simp [Res.andThen, branch]
    · cases hv : W.truth v <;> simp [Res.andThen, branch, hv, W.truth_ofBool]
    · simp [Res.andThen, branch]
  · simp only [eval]
    rcases W.operands l r s with _ | ⟨v, s2⟩ | s2
    · simp [Res.andThen, branch]
    · cases hv : W.eqV v.1 v.2 <;> simp [Res.andThen, branch, hv, W.truth_ofBool]
    · simp [Res.andThen, branch]

/-- The advice for `if`: without the negation and with the branches swapped it does the same, in
every state and from every label.  As everywhere in C, no label is in both branches. -/
theorem C45_if_same {c pos : Stmt} (hc : Negated c pos) (i : Option Stmt) (t e : Stmt)
    (hlabels : ∀ l : Entry V, l ≠ .start → ¬ (hasEntry W l t = true ∧ hasEntry W l e = true)) :
    Same W (.ifS i c t (some e)) (.ifS i pos e (some t)) := by
  refine ⟨fun l => ?_, fun l s o s' => ?_⟩
  · simp only [hasEntry, hasEntryO]
    rw [Bool.or_right_comm]
  · by_cases hl : l = .start
    · subst hl
      simp only [run_if_branch, runO_some, eval_negated W hc]
    · have := hlabels l hl
      simp only [run_if_enter hl, Option.some.injEq, exists_eq_left']
      cases h1 : hasEntry W l t <;> cases h2 : hasEntry W l e <;> simp_all

/-- The advice for `?:`. -/
theorem C45_conditional_same {c pos : Stmt} (hc : Negated c pos) (t f : Stmt) :
    SameE W (.condOp c t f) (.condOp pos f t) := by
  intro s
  rcases hc with rfl | ⟨l, r, rfl, rfl⟩
  · simp only [eval]
    rcases eval W pos s with _ | ⟨v, s2⟩ | s2
    · simp [Res.andThen]
    · cases hv : W.truth v <;> simp [Res.andThen, hv, W.truth_ofBool]
    · simp [Res.andThen]
  · simp only [eval]
    rcases W.operands l r s with _ | ⟨v, s2⟩ | s2
    · simp [Res.andThen]
    · cases hv : W.eqV v.1 v.2 <;> simp [Res.andThen, hv, W.truth_ofBool]
    · simp [Res.andThen]

end

example : invertedLogicVisit (.ifS none (.unary .lnot (.declRef ⟨0, []⟩)) .nullS (some .breakS)) ≠ [] := by
  simp [invertedLogicVisit, isInvertedLogic]
example : invertedLogicVisit (.ifS none (.unary .lnot (.declRef ⟨0, []⟩)) .nullS none) = [] := by
  simp [invertedLogicVisit]

end Oclint
