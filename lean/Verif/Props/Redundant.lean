import Verif.Model.RulesControl
import Verif.Lemmas.Semantics

/-! # Redundant `if` and redundant `?:`: C44 -/

namespace Oclint

open Spec

set_option linter.unusedSimpArgs false

namespace Spec

/-- The statement is `x`, perhaps in braces. -/
inductive Only (x : Stmt) : Stmt → Prop where
  | self : Only x x
  | block {y} : Only x y → Only x (.compound [y])

/-- Two constants of which one is true and one is false: `true`/`false`, `YES`/`NO`, or C casts of
numbers of which one is zero. -/
inductive Opposite : Stmt → Stmt → Prop where
  | bool (b : Bool) : Opposite (.boolLit b) (.boolLit (!b))
  | objc (b : Bool) : Opposite (.objcBoolLit b) (.objcBoolLit (!b))
  | castL (k k' m n) : m ≠ 0 → n = 0 →
      Opposite (.cast .cstyle k (.intLit m)) (.cast .cstyle k' (.intLit n))
  | castR (k k' m n) : m = 0 → n ≠ 0 →
      Opposite (.cast .cstyle k (.intLit m)) (.cast .cstyle k' (.intLit n))

/-- The true constants of `Opposite`. -/
def isTrueLit : Stmt → Bool
  | .boolLit b => b
  | .objcBoolLit b => b
  | .cast .cstyle _ (.intLit n) => decide (n ≠ 0)
  | _ => false

/-- The condition, or its negation, as a truth value. -/
def asTruth (positive : Bool) (c : Stmt) : Stmt :=
  if positive then .unary .lnot (.unary .lnot c) else .unary .lnot c

/-- Constants for `?:` that are opposite; numbers and Objective-C constants are converted there. -/
inductive OppositeIn : Stmt → Stmt → Prop where
  | bool (b : Bool) : OppositeIn (.boolLit b) (.boolLit (!b))
  | objc (k k' b) : OppositeIn (.cast .implicit k (.objcBoolLit b)) (.cast .implicit k' (.objcBoolLit (!b)))
  | castL (j j' k k' m n) : m ≠ 0 → n = 0 → OppositeIn
      (.cast .implicit j (.cast .cstyle k (.intLit m))) (.cast .implicit j' (.cast .cstyle k' (.intLit n)))
  | castR (j j' k k' m n) : m = 0 → n ≠ 0 → OppositeIn
      (.cast .implicit j (.cast .cstyle k (.intLit m))) (.cast .implicit j' (.cast .cstyle k' (.intLit n)))

/-- The same constant or the same variable twice; for C casts only the truth value is the same. -/
inductive TwiceIn : Stmt → Stmt → Prop where
  | bool (b) : TwiceIn (.boolLit b) (.boolLit b)
  | int (n) : TwiceIn (.intLit n) (.intLit n)
  | float (n) : TwiceIn (.floatLit n) (.floatLit n)
  | char (n) : TwiceIn (.charLit n) (.charLit n)
  | str (k k' s) : TwiceIn (.cast .implicit k (.strLit s)) (.cast .implicit k' (.strLit s))
  | objc (k k' b) : TwiceIn (.cast .implicit k (.objcBoolLit b)) (.cast .implicit k' (.objcBoolLit b))
  | var (k k' x y) : x.id = y.id →
      TwiceIn (.cast .implicit k (.declRef x)) (.cast .implicit k' (.declRef y))
  | cast (j j' k k' m n) : (m = 0 ↔ n = 0) → TwiceIn
      (.cast .implicit j (.cast .cstyle k (.intLit m))) (.cast .implicit j' (.cast .cstyle k' (.intLit n)))

end Spec

/-! ## What is reported -/

theorem extractReturn_iff (s : Stmt) (v : Option Stmt) :
    extractReturn s = some v ↔ Only (.returnS v) s := by
  induction s using Stmt.rec (motive_2 := fun l => ∀ v, extractReturnL l = some v ↔
      ∃ y, l = [y] ∧ Only (.returnS v) y) (motive_3 := fun _ => True) generalizing v with
  | compound b ih =>
    simp only [extractReturn, ih]
    constructor
    · rintro ⟨y, rfl, h⟩; exact .block h
    · intro h; cases h with | block h => exact ⟨_, rfl, h⟩
  | returnS v' _ =>
    simp only [extractReturn, Option.some.injEq]
    constructor
    · rintro rfl; exact .self
    · intro h; cases h; rfl
  | nil => simp [extractReturnL]
  | cons s l ih1 _ =>
    rename_i w
    cases l with
    | nil => simp [extractReturnL, ih1]
    | cons => simp [extractReturnL]
  | none => trivial
  | some => trivial
  | _ => simp only [extractReturn, reduceCtorEq, false_iff]; intro h; cases h

theorem extractBinary_iff (s : Stmt) (o : BinOp) (l r : Stmt) :
    extractBinary s = some (o, l, r) ↔ Only (.binary o l r) s := by
  induction s using Stmt.rec (motive_2 := fun ls => ∀ o l r, extractBinaryL ls = some (o, l, r) ↔
      ∃ y, ls = [y] ∧ Only (.binary o l r) y) (motive_3 := fun _ => True) generalizing o l r with
  | compound b ih =>
    simp only [extractBinary, ih]
    constructor
    · rintro ⟨y, rfl, h⟩; exact .block h
    · intro h; cases h with | block h => exact ⟨_, rfl, h⟩
  | binary o' l' r' _ =>
    simp only [extractBinary, Option.some.injEq, Prod.mk.injEq]
    constructor
    · rintro ⟨rfl, rfl, rfl⟩; exact .self
    · intro h; cases h; exact ⟨rfl, rfl, rfl⟩
  | nil => simp [extractBinaryL]
  | cons s l ih1 _ =>
    cases l with
    | nil => simp [extractBinaryL, ih1]
    | cons => simp [extractBinaryL]
  | none => trivial
  | some => trivial
  | _ => simp only [extractBinary, reduceCtorEq, false_iff]; intro h; cases h

theorem literalsDiffer_iff (a b : Stmt) : literalsDiffer a b = true ↔ Opposite a b := by
  constructor
  · intro h
    unfold literalsDiffer at h
    split at h
    · rename_i x y
      have : y = !x := by cases x <;> cases y <;> simp_all
      subst this; exact .bool x
    · rename_i x y
      have : y = !x := by cases x <;> cases y <;> simp_all
      subst this; exact .objc x
    · rename_i k x k' y
      unfold cIntegerViolated at h
      split at h
      · rename_i m n
        by_cases hm : m = 0
        · exact .castR _ _ _ _ hm (by rintro rfl; simp [hm] at h)
        · by_cases hn : n = 0
          · exact .castL _ _ _ _ hm hn
          · simp [hm, hn] at h
      · simp at h
    · simp at h
  · intro h
    cases h with
    | bool b => cases b <;> rfl
    | objc b => cases b <;> rfl
    | castL k k' m n hm hn => simp [literalsDiffer, cIntegerViolated, hm, hn]
    | castR k k' m n hm hn => simp [literalsDiffer, cIntegerViolated, hm, hn]

/-- The redundant-if rule reports exactly the two-way `if`s whose branches are nothing but returns
of opposite constants, or nothing but binary operations with opposite constants on the right. -/
theorem C44_if_reports_exactly (s x : Stmt) : x ∈ redundantIfVisit s ↔
    x = s ∧ ∃ p c t e a b, s = .ifS p c t (some e) ∧ Opposite a b ∧
      ((Only (.returnS (some a)) t ∧ Only (.returnS (some b)) e) ∨
       ∃ o l o' l', Only (.binary o l a) t ∧ Only (.binary o' l' b) e) := by
  cases s with
  | ifS p c t e =>
    have h1 : returnsViolate (extractReturn t) (e.bind extractReturn) = true ↔
        ∃ y a b, e = some y ∧ Opposite a b ∧ Only (.returnS (some a)) t ∧ Only (.returnS (some b)) y := by
      constructor
      · intro h
        unfold returnsViolate at h
        split at h
        · rename_i a b h1 h2
          obtain ⟨y, rfl, h2⟩ := Option.bind_eq_some_iff.mp h2
          exact ⟨y, a, b, rfl, (literalsDiffer_iff _ _).mp h, (extractReturn_iff _ _).mp h1,
            (extractReturn_iff _ _).mp h2⟩
        · simp at h
      · rintro ⟨y, a, b, rfl, h, ha, hb⟩
        rw [(extractReturn_iff _ _).mpr ha, Option.bind_some, (extractReturn_iff _ _).mpr hb]
        exact (literalsDiffer_iff _ _).mpr h
    have h2 : binariesViolate (extractBinary t) (e.bind extractBinary) = true ↔
        ∃ y a b o l o' l', e = some y ∧ Opposite a b ∧ Only (.binary o l a) t ∧ Only (.binary o' l' b) y := by
      constructor
      · intro h
        unfold binariesViolate at h
        split at h
        · rename_i o l a o' l' b hq1 hq2
          obtain ⟨y, rfl, hq2⟩ := Option.bind_eq_some_iff.mp hq2
          exact ⟨y, a, b, o, l, o', l', rfl, (literalsDiffer_iff _ _).mp h,
            (extractBinary_iff _ _ _ _).mp hq1, (extractBinary_iff _ _ _ _).mp hq2⟩
        · simp at h
      · rintro ⟨y, a, b, o, l, o', l', rfl, h, ha, hb⟩
        rw [(extractBinary_iff _ _ _ _).mpr ha, Option.bind_some, (extractBinary_iff _ _ _ _).mpr hb]
        exact (literalsDiffer_iff _ _).mpr h
    simp only [redundantIfVisit]
    constructor
    · intro h
      split at h
      · next hv =>
        simp only [List.mem_singleton] at h
        refine ⟨h, ?_⟩
        rw [Bool.or_eq_true, h1, h2] at hv
        rcases hv with ⟨y, a, b, rfl, hq⟩ | ⟨y, a, b, o, l, o', l', rfl, hq, h'⟩
        · exact ⟨p, c, t, y, a, b, rfl, hq.1, .inl hq.2⟩
        · exact ⟨p, c, t, y, a, b, rfl, hq, .inr ⟨o, l, o', l', h'⟩⟩
      · simp at h
    · rintro ⟨rfl, p', c', t', y, a, b, hs, h, hor⟩
      cases hs
      rw [if_pos]
      · simp
      · rw [Bool.or_eq_true, h1, h2]
        rcases hor with hh | ⟨o, l, o', l', hh⟩
        · exact .inl ⟨y, a, b, rfl, h, hh⟩
        · exact .inr ⟨y, a, b, o, l, o', l', rfl, h, hh⟩
  | _ => simp [redundantIfVisit]

theorem conditionalNotEquals_iff (t f : Stmt) : conditionalNotEquals t f = true ↔ OppositeIn t f := by
  constructor
  · intro h
    unfold conditionalNotEquals at h
    rw [Bool.or_eq_true] at h
    rcases h with h | h
    · split at h
      · rename_i x y
        have : y = !x := by cases x <;> cases y <;> simp_all
        subst this; exact .bool x
      · simp at h
    · split at h
      · rename_i x y h1 h2
        cases t <;> simp [fromImplicitCast] at h1
        cases f <;> simp [fromImplicitCast] at h2
        rename_i form k sub form' k' sub'
        cases form <;> simp at h1
        cases form' <;> simp at h2
        subst h1 h2
        have : y = !x := by cases x <;> cases y <;> simp_all
        subst this; exact .objc _ _ x
      · rename_i j m j' n h1 h2
        cases t <;> simp [fromImplicitCast] at h1
        cases f <;> simp [fromImplicitCast] at h2
        rename_i form k sub form' k' sub'
        cases form <;> simp at h1
        cases form' <;> simp at h2
        subst h1 h2
        by_cases hm : m = 0
        · exact .castR _ _ _ _ _ _ hm (by rintro rfl; simp [hm] at h)
        · by_cases hn : n = 0
          · exact .castL _ _ _ _ _ _ hm hn
          · simp [hm, hn] at h
      · simp at h
  · intro h
    cases h with
    | bool b => cases b <;> rfl
    | objc k k' b => cases b <;> rfl
    | castL j j' k k' m n hm hn => simp [conditionalNotEquals, fromImplicitCast, hm, hn]
    | castR j j' k k' m n hm hn => simp [conditionalNotEquals, fromImplicitCast, hm, hn]

theorem conditionalSame_iff (t f : Stmt) :
    (conditionalSameConstant t f || conditionalSameVariable t f) = true ↔ TwiceIn t f := by
  constructor
  · intro h
    rw [Bool.or_eq_true] at h
    rcases h with h | h
    · unfold conditionalSameConstant at h
      rw [Bool.or_eq_true] at h
      rcases h with h | h
      · split at h
        · simp only [beq_iff_eq] at h; subst h; exact .bool _
        · simp only [beq_iff_eq] at h; subst h; exact .int _
        · simp only [beq_iff_eq] at h; subst h; exact .float _
        · simp only [beq_iff_eq] at h; subst h; exact .char _
        · simp at h
      · split at h
        · rename_i x y h1 h2
          cases t <;> simp [fromImplicitCast] at h1
          cases f <;> simp [fromImplicitCast] at h2
          rename_i form k sub form' k' sub'
          cases form <;> simp at h1
          cases form' <;> simp at h2
          subst h1 h2
          simp only [beq_iff_eq] at h; subst h; exact .objc _ _ _
        · rename_i j m j' n h1 h2
          cases t <;> simp [fromImplicitCast] at h1
          cases f <;> simp [fromImplicitCast] at h2
          rename_i form k sub form' k' sub'
          cases form <;> simp at h1
          cases form' <;> simp at h2
          subst h1 h2
          refine .cast _ _ _ _ _ _ ?_
          by_cases hm : m = 0 <;> by_cases hn : n = 0 <;> simp [hm, hn] at h ⊢
        · rename_i x y h1 h2
          cases t <;> simp [fromImplicitCast] at h1
          cases f <;> simp [fromImplicitCast] at h2
          rename_i form k sub form' k' sub'
          cases form <;> simp at h1
          cases form' <;> simp at h2
          subst h1 h2
          simp only [beq_iff_eq] at h; subst h; exact .str _ _ _
        · simp at h
    · unfold conditionalSameVariable at h
      split at h
      · rename_i x y h1 h2
        cases t <;> simp [fromImplicitCast] at h1
        cases f <;> simp [fromImplicitCast] at h2
        rename_i form k sub form' k' sub'
        cases form <;> simp at h1
        cases form' <;> simp at h2
        subst h1 h2
        exact .var _ _ _ _ (by simpa using h)
      · simp at h
  · intro h
    cases h with
    | var k k' x y hx => simp [conditionalSameVariable, fromImplicitCast, hx]
    | cast j j' k k' m n hmn => simp [conditionalSameConstant, fromImplicitCast, hmn]
    | _ => simp [conditionalSameConstant, fromImplicitCast]

/-- The redundant-conditional rule reports exactly the `?:` with opposite constants, with the same
constant twice, or with the same variable twice. -/
theorem C44_conditional_reports_exactly (s x : Stmt) : x ∈ redundantConditionalVisit s ↔
    x = s ∧ ∃ c t f, s = .condOp c t f ∧ (OppositeIn t f ∨ TwiceIn t f) := by
  cases s with
  | condOp c t f =>
    have : (conditionalNotEquals t f || conditionalSameConstant t f || conditionalSameVariable t f)
        = true ↔ (OppositeIn t f ∨ TwiceIn t f) := by
      rw [Bool.or_assoc, Bool.or_eq_true, conditionalNotEquals_iff, conditionalSame_iff]
    simp only [redundantConditionalVisit]
    by_cases h : OppositeIn t f ∨ TwiceIn t f
    · rw [if_pos (this.mpr h)]
      simp only [List.mem_singleton]
      constructor
      · rintro rfl; exact ⟨rfl, c, t, f, rfl, h⟩
      · exact fun h => h.1
    · rw [if_neg (by rw [this]; exact h)]
      simp only [List.not_mem_nil, false_iff]
      rintro ⟨_, c', t', f', hs, h'⟩
      cases hs; exact h h'
  | _ => simp [redundantConditionalVisit]

/-! ## What the advice does -/

section
variable {σ V : Type} (W : World σ V)

theorem only_run {x s : Stmt} (h : Only x s) (a : σ) (o : Out V) (b : σ) :
    Run W .start s a o b ↔ Run W .start x a o b := by
  induction h with
  | self => rfl
  | block _ ih =>
    rw [run_compound, runL_cons_start, ← ih]
    simp only [runL_nil]
    constructor
    · rintro (⟨h, _⟩ | ⟨s1, h, _, rfl, rfl⟩) <;> exact h
    · intro h
      by_cases ho : o = .normal
      · subst ho; exact .inr ⟨_, h, by simp⟩
      · exact .inl ⟨h, ho⟩

theorem only_noEntry {x s : Stmt} (h : Only x s) (hx : NoEntry W x) : NoEntry W s := by
  induction h with
  | self => exact hx
  | block _ ih =>
    intro l hl
    have := ih l hl
    cases l <;> simp at hl <;> simp [hasEntry, hasEntryL, this]

theorem eval_lnot (c : Stmt) (s : σ) : eval W (.unary .lnot c) s =
    Res.andThen (eval W c s) fun v s => some (.val (W.ofBool (!W.truth v)) s) := by
  simp only [eval]

/-- `asTruth` gives the truth value of the condition, or of its negation. -/
theorem eval_asTruth (b : Bool) (c : Stmt) (s : σ) : eval W (asTruth b c) s =
    Res.andThen (eval W c s) fun v s => some (.val (W.ofBool (W.truth v == b)) s) := by
  cases b
  · simp only [asTruth, Bool.false_eq_true, if_false, eval_lnot]
    congr; funext v s; cases W.truth v <;> rfl
  · simp only [asTruth, if_true, eval_lnot]
    rcases eval W c s with _ | ⟨v, s2⟩ | s2 <;> simp [Res.andThen, W.truth_ofBool]

/-- Opposite literals have the opposite truth values. -/
theorem opposite_truth {a b : Stmt} (h : Opposite a b) : isTrueLit b = !isTrueLit a := by
  cases h with
  | bool b => cases b <;> rfl
  | objc b => cases b <;> rfl
  | castL k k' m n hm hn => simp [isTrueLit, hm, hn]
  | castR k k' m n hm hn => simp [isTrueLit, hm, hn]

/-- Neither constant is a C cast. -/
def NoCast : Stmt → Prop
  | .cast _ _ _ => False
  | _ => True

theorem opposite_eval {a b : Stmt} (h : Opposite a b) (ha : NoCast a) (s : σ) :
    eval W a s = some (.val (W.ofBool (isTrueLit a)) s) ∧
    eval W b s = some (.val (W.ofBool (!isTrueLit a)) s) := by
  cases h with
  | bool x => simp [eval, W.lit_bool, isTrueLit]
  | objc x => simp [eval, W.lit_objc, isTrueLit]
  | castL => exact ha.elim
  | castR => exact ha.elim

/-- The advice for `if` with returns of `true`/`false` or `YES`/`NO`: returning the truth value of
the condition, or of its negation, is the same. -/
theorem C44_if_return_same {c t e a b : Stmt} (h : Opposite a b) (ha : NoCast a)
    (ht : Only (.returnS (some a)) t) (he : Only (.returnS (some b)) e) :
    Same W (.ifS none c t (some e)) (.returnS (some (asTruth (isTrueLit a) c))) := by
  have hnt := only_noEntry W ht (fun l hl => by cases l <;> simp at hl <;> rfl)
  have hne := only_noEntry W he (fun l hl => by cases l <;> simp at hl <;> rfl)
  refine ⟨fun l => ?_, fun l s o s' => ?_⟩
  · by_cases hl : l = .start
    · subst hl; simp
    · simp only [hasEntry, hnt l hl, hne l hl, hasEntryO, Bool.or_false]
  · by_cases hl : l = .start
    · subst hl
      simp only [run_if_branch, runO_none, runO_some, run_return, only_run W ht, only_run W he,
        eval_asTruth, (opposite_eval W h ha _).1, (opposite_eval W h ha _).2]
      constructor
      · rintro (⟨⟨h1, _⟩, h2⟩ | ⟨s1, ⟨_, rfl⟩, hb⟩)
        · exact absurd h1 h2
        · rcases hc : eval W c s1 with _ | ⟨v, s2⟩ | s2
          · simp [hc, branch] at hb
          · simp only [hc, branch, Option.some.injEq, Res.val.injEq, reduceCtorEq, false_and,
              or_false] at hb
            split at hb
            · next hv =>
              obtain ⟨w, ⟨rfl, rfl⟩, rfl⟩ := hb
              exact .inl ⟨_, by simp [Res.andThen, hv]; rfl, by simp⟩
            · next hv =>
              obtain ⟨w, ⟨rfl, rfl⟩, rfl⟩ := hb
              exact .inl ⟨_, by simp [Res.andThen, hv]; rfl, by simp⟩
          · simp only [hc, branch] at hb
            obtain ⟨rfl, rfl⟩ := hb
            exact .inr ⟨by simp [Res.andThen], rfl⟩
      · intro h'
        refine .inr ⟨s, ⟨trivial, rfl⟩, ?_⟩
        rcases hc : eval W c s with _ | ⟨v, s2⟩ | s2
        · simp [hc, Res.andThen] at h'
        · simp only [hc, Res.andThen, Option.some.injEq, Res.val.injEq, reduceCtorEq, false_and,
            or_false] at h'
          obtain ⟨w, ⟨rfl, rfl⟩, rfl⟩ := h'
          cases hv : W.truth v <;> simp [branch, hv]
        · simp only [hc, Res.andThen, Option.some.injEq, reduceCtorEq, false_and, exists_false,
            false_or, Res.thrown.injEq] at h'
          obtain ⟨rfl, rfl⟩ := h'
          simp [branch]
    · constructor
      · intro h
        have := run_hasEntry h
        have h1 := hnt l hl
        have h2 := hne l hl
        cases l <;> simp at hl <;> simp [hasEntry, hasEntryO, h1, h2] at this
      · intro h
        have := run_hasEntry h
        cases l <;> simp at hl <;> simp [hasEntry] at this

/-- The advice for `if` with assignments of such constants to one variable: assigning the truth
value of the condition, or of its negation, is the same. -/
theorem C44_if_assign_same_partial {c t e a b : Stmt} {d : DeclId} (h : Opposite a b) (ha : NoCast a)
    (ht : Only (.binary .assign (.declRef d) a) t) (he : Only (.binary .assign (.declRef d) b) e) :
    Same W (.ifS none c t (some e)) (.binary .assign (.declRef d) (asTruth (isTrueLit a) c)) := by
  have hnt := only_noEntry W ht (fun l hl => by cases l <;> simp at hl <;> rfl)
  have hne := only_noEntry W he (fun l hl => by cases l <;> simp at hl <;> rfl)
  have hass : ∀ x s o s', Run W .start (.binary .assign (.declRef d) x) s o s' ↔
      (∃ v s1, eval W x s = some (.val v s1) ∧ o = .normal ∧ s' = W.store d v s1) ∨
      (eval W x s = some (.thrown s') ∧ o = .thrown) := by
    intro x s o s'
    constructor
    · intro h
      cases h with
      | expr _ h =>
        simp only [eval] at h
        rcases hx : eval W x s with _ | ⟨v, s2⟩ | s2 <;> rw [hx] at h <;>
          simp [Res.andThen] at h
        exact .inl ⟨_, _, rfl, rfl, h.2.symm⟩
      | exprThrow _ h =>
        simp only [eval] at h
        rcases hx : eval W x s with _ | ⟨v, s2⟩ | s2 <;> rw [hx] at h <;>
          simp [Res.andThen] at h
        exact .inr ⟨by rw [h], rfl⟩
      | other h => simp [isOther] at h
    · rintro (⟨v, s1, h, rfl, rfl⟩ | ⟨h, rfl⟩)
      · exact .expr (v := v) rfl (by simp [eval, h, Res.andThen])
      · exact .exprThrow rfl (by simp [eval, h, Res.andThen])
  refine ⟨fun l => ?_, fun l s o s' => ?_⟩
  · by_cases hl : l = .start
    · subst hl; simp
    · simp only [hasEntry, hnt l hl, hne l hl, hasEntryO, Bool.or_false]
  · by_cases hl : l = .start
    · subst hl
      simp only [run_if_branch, runO_none, runO_some, hass, only_run W ht, only_run W he,
        eval_asTruth, (opposite_eval W h ha _).1, (opposite_eval W h ha _).2]
      constructor
      · rintro (⟨⟨h1, _⟩, h2⟩ | ⟨s1, ⟨_, rfl⟩, hb⟩)
        · exact absurd h1 h2
        · rcases hc : eval W c s1 with _ | ⟨v, s2⟩ | s2
          · simp [hc, branch] at hb
          · simp only [hc, branch, Option.some.injEq, Res.val.injEq, reduceCtorEq, false_and,
              or_false] at hb
            split at hb
            · next hv =>
              obtain ⟨w, s3, ⟨rfl, rfl⟩, rfl, rfl⟩ := hb
              exact .inl ⟨_, _, by simp [Res.andThen, hv]; exact ⟨rfl, rfl⟩, rfl, by simp⟩
            · next hv =>
              obtain ⟨w, s3, ⟨rfl, rfl⟩, rfl, rfl⟩ := hb
              exact .inl ⟨_, _, by simp [Res.andThen, hv]; exact ⟨rfl, rfl⟩, rfl, by simp⟩
          · simp only [hc, branch] at hb
            obtain ⟨rfl, rfl⟩ := hb
            exact .inr ⟨by simp [Res.andThen], rfl⟩
      · intro h'
        refine .inr ⟨s, ⟨trivial, rfl⟩, ?_⟩
        rcases hc : eval W c s with _ | ⟨v, s2⟩ | s2
        · simp [hc, Res.andThen] at h'
        · simp only [hc, Res.andThen, Option.some.injEq, Res.val.injEq, reduceCtorEq, false_and,
            or_false] at h'
          obtain ⟨w, s3, ⟨rfl, rfl⟩, rfl, rfl⟩ := h'
          cases hv : W.truth v <;> simp [branch, hv] <;> exact ⟨_, _, ⟨rfl, rfl⟩, rfl⟩
        · simp only [hc, Res.andThen, Option.some.injEq, reduceCtorEq, false_and, exists_false,
            false_or, Res.thrown.injEq] at h'
          obtain ⟨rfl, rfl⟩ := h'
          simp [branch]
    · constructor
      · intro h
        have := run_hasEntry h
        have h1 := hnt l hl
        have h2 := hne l hl
        cases l <;> simp at hl <;> simp [hasEntry, hasEntryO, h1, h2] at this
      · intro h
        have := run_hasEntry h
        cases l <;> simp at hl <;> simp [hasEntry] at this

/-- The same result up to the representation of a truth value. -/
def TruthRes (r r' : Option (Res σ V)) : Prop :=
  match r, r' with
  | some (.val v s), some (.val w s') => W.truth v = W.truth w ∧ s = s'
  | some (.thrown s), some (.thrown s') => s = s'
  | none, none => True
  | _, _ => False

/-- Casts of number constants keep whether the number is zero. -/
def CastsKeepTruth : Prop :=
  ∀ k n, W.truth (W.castV .cstyle k (W.lit (.intLit n))) = decide (n ≠ 0)

/-- Implicit casts keep the truth value. -/
def ImplicitKeepsTruth : Prop := ∀ k v, W.truth (W.castV .implicit k v) = W.truth v

/-- The advice for `?:` with opposite constants: the truth value of the condition, or of its
negation, is the same; for `true` and `false` it is the same value. -/
theorem C44_conditional_opposite {c t f : Stmt} (h : OppositeIn t f) :
    (∀ b, t = .boolLit b → SameE W (.condOp c t f) (asTruth b c)) ∧
    (∀ b k, t = .cast .implicit k (.objcBoolLit b) → f = .cast .implicit k (.objcBoolLit (!b)) →
      SameE W (.condOp c t f) (.cast .implicit k (asTruth b c))) ∧
    (CastsKeepTruth W → ImplicitKeepsTruth W →
      ∃ b, ∀ s, TruthRes W (eval W (.condOp c t f) s) (eval W (asTruth b c) s)) := by
  refine ⟨?_, ?_, ?_⟩
  · rintro b rfl s
    cases h
    simp only [eval, eval_asTruth]
    rcases eval W c s with _ | ⟨v, s2⟩ | s2 <;> simp [Res.andThen, W.lit_bool]
    cases hv : W.truth v <;> cases b <;> simp
  · rintro b k rfl rfl s
    simp only [eval, eval_asTruth]
    rcases eval W c s with _ | ⟨v, s2⟩ | s2 <;> simp [Res.andThen, W.lit_objc]
    cases hv : W.truth v <;> cases b <;> simp
  · intro hc hi
    cases h with
    | bool b =>
      refine ⟨b, fun s => ?_⟩
      simp only [eval, eval_asTruth]
      rcases eval W c s with _ | ⟨v, s2⟩ | s2 <;> simp [Res.andThen, W.lit_bool, TruthRes]
      cases hv : W.truth v <;> cases b <;> simp [W.truth_ofBool]
    | objc k k' b =>
      refine ⟨b, fun s => ?_⟩
      simp only [eval, eval_asTruth]
      rcases eval W c s with _ | ⟨v, s2⟩ | s2 <;> simp [Res.andThen, W.lit_objc, TruthRes]
      cases hv : W.truth v <;> cases b <;> simp [W.truth_ofBool, hi _ _]
    | castL j j' k k' m n hm hn =>
      refine ⟨true, fun s => ?_⟩
      simp only [eval, eval_asTruth]
      rcases eval W c s with _ | ⟨v, s2⟩ | s2 <;> simp [Res.andThen, TruthRes]
      cases hv : W.truth v <;> simp [W.truth_ofBool, hi _ _, hc _ _, hm, hn]
    | castR j j' k k' m n hm hn =>
      refine ⟨false, fun s => ?_⟩
      simp only [eval, eval_asTruth]
      rcases eval W c s with _ | ⟨v, s2⟩ | s2 <;> simp [Res.andThen, TruthRes]
      cases hv : W.truth v <;> simp [W.truth_ofBool, hi _ _, hc _ _, hm, hn]

/-- The advice for `?:` with the same operand twice: after the condition, that operand gives the
same value. -/
theorem C44_conditional_twice_partial {c t : Stmt} (s : σ) :
    eval W (.condOp c t t) s = Res.andThen (eval W c s) fun _ s => eval W t s := by
  simp only [eval]
  rcases eval W c s with _ | ⟨v, s2⟩ | s2 <;> simp [Res.andThen]

end

/-! ## Where the advice is wrong -/

/-- The rule does not look at the operator: `if (x == 5) x = true; else x == false;` is reported,
but neither assigning the condition nor its negation does the same. -/
theorem C44_operator_witness :
    let d : DeclId := ⟨0, []⟩
    let x : Stmt := .declRef d
    let c : Stmt := .binary .eq x (.intLit 5)
    let s : Stmt := .ifS none c (.binary .assign x (.boolLit true)) (some (.binary .eq x (.boolLit false)))
    s ∈ redundantIfVisit s ∧ ∀ b, ¬ Same machine s (.binary .assign x (asTruth b c)) := by
  intro d x c s
  refine ⟨(C44_if_reports_exactly _ _).mpr ⟨rfl, _, _, _, _, _, _, rfl, .bool true,
    .inr ⟨_, _, _, _, .self, .self⟩⟩, fun b h => ?_⟩
  have h1 : Run machine .start s 3 .normal 3 :=
    .ifFalse (v := 0) (s2 := 3) .none rfl rfl (.some (.expr (v := 0) rfl rfl))
  have h2 := (h.2 _ _ _ _).mp h1
  cases h2 with
  | expr _ h =>
    cases b
    · have : (some (.val 1 1) : Option (Res Int Int)) = some (.val _ 3) := h
      simp at this
    · have : (some (.val 0 0) : Option (Res Int Int)) = some (.val _ 3) := h
      simp at this
  | other h => simp [isOther] at h

/-- The rule does not look at what is assigned to either: `if (z) x = true; else y = false;` is
reported, but assigning the condition or its negation to one of the variables is not the same. -/
theorem C44_variable_witness (x y z : DeclId) (hxy : x ≠ y) :
    let c : Stmt := .declRef z
    let s : Stmt := .ifS none c (.binary .assign (.declRef x) (.boolLit true))
      (some (.binary .assign (.declRef y) (.boolLit false)))
    s ∈ redundantIfVisit s ∧
      ∀ d b, ¬ Same memory s (.binary .assign (.declRef d) (asTruth b c)) := by
  intro c s
  refine ⟨(C44_if_reports_exactly _ _).mpr ⟨rfl, _, _, _, _, _, _, rfl, .bool true,
    .inr ⟨_, _, _, _, .self, .self⟩⟩, fun d b h => ?_⟩
  -- from a state with z true, x becomes 1 and nothing else changes; with z false, y becomes 0
  have h1 : ∀ m : DeclId → Int, m z ≠ 0 →
      Run memory .start s m .normal (fun d' => if d' = x then 1 else m d') := fun m hm =>
    .ifTrue (v := m z) (s2 := m) .none rfl (decide_eq_true hm) (.expr (v := 1) rfl rfl)
  have h0 : ∀ m : DeclId → Int, m z = 0 →
      Run memory .start s m .normal (fun d' => if d' = y then 0 else m d') := fun m hm =>
    .ifFalse (v := m z) (s2 := m) .none rfl (by simp [memory, hm]) (.some (.expr (v := 0) rfl rfl))
  have hrun : ∀ m m' : DeclId → Int,
      Run memory .start (.binary .assign (.declRef d) (asTruth b c)) m .normal m' →
      m' = fun d' => if d' = d then (if (decide (m z ≠ 0) == b) then 1 else 0) else m d' := by
    intro m m' hr
    cases hr with
    | expr _ h =>
      rw [eval, eval_asTruth] at h
      simp only [c, eval, memory, Res.andThen, Option.some.injEq, Res.val.injEq] at h
      rw [← h.2]
    | other h => simp [isOther] at h
  by_cases hd : d = x
  · -- then z false has to leave x alone
    subst hd
    have e := hrun _ _ ((h.2 _ _ _ _).mp (h0 (fun d' => if d' = z then 0 else 7) (by simp)))
    have ey := congrFun e y
    have ex := congrFun e d
    by_cases hz : y = z
    · subst hz
      simp [hxy, Ne.symm hxy] at ex
      split at ex <;> simp at ex
    · simp [hxy, Ne.symm hxy, hz] at ey
  · have e := hrun _ _ ((h.2 _ _ _ _).mp (h1 (fun _ => 7) (by simp)))
    have ex := congrFun e x
    simp [Ne.symm hd] at ex

/-- `(char)2` and `(char)3` are reported as the same constant; their values differ. -/
theorem C44_cast_witness :
    let t (n : Nat) : Stmt := .cast .implicit .other (.cast .cstyle .other (.intLit n))
    let s : Stmt := .condOp (.declRef ⟨0, []⟩) (t 2) (t 3)
    s ∈ redundantConditionalVisit s ∧
      ∀ y ∈ [t 2, t 3], ∃ a : Int, eval machine s a ≠ eval machine y a := by
  intro t s
  refine ⟨(C44_conditional_reports_exactly _ _).mpr ⟨rfl, _, _, _, rfl, .inr (.cast _ _ _ _ _ _ (by simp))⟩, ?_⟩
  intro y hy
  simp only [List.mem_cons, List.not_mem_nil, or_false] at hy
  rcases hy with rfl | rfl
  · refine ⟨0, fun h => ?_⟩
    have : (some (.val 3 0) : Option (Res Int Int)) = some (.val 2 0) := h
    simp at this
  · refine ⟨1, fun h => ?_⟩
    have : (some (.val 2 1) : Option (Res Int Int)) = some (.val 3 1) := h
    simp at this

example : redundantIfVisit (.ifS none (.declRef ⟨0, []⟩) (.compound [.returnS (some (.boolLit true))])
    (some (.returnS (some (.boolLit false))))) ≠ [] := by
  simp [redundantIfVisit, extractReturn, extractReturnL, returnsViolate, literalsDiffer]
example : redundantIfVisit (.ifS none (.declRef ⟨0, []⟩) (.returnS (some (.boolLit true)))
    (some (.returnS (some (.boolLit true))))) = [] := by
  simp [redundantIfVisit, extractReturn, extractBinary, binariesViolate, returnsViolate, literalsDiffer]

end Oclint
