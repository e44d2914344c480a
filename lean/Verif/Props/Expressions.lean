import Verif.Model.RulesExpr
import Verif.Spec.Values
import Verif.Lemmas.Semantics
import Verif.Lemmas.Ast
import Mathlib.Algebra.Group.Int.Even
import Mathlib.Tactic.Ring

/-!
# Rules about expressions

C46, C47 and C48.  Behaviour is that of `Spec/Semantics.lean` and `Spec/Values.lean`.
-/

namespace Oclint

open Spec

set_option linter.unusedSimpArgs false

/-! ## C46 -/

/-- The expression is a remainder by two. -/
theorem isRemainderByTwo_iff (e : Stmt) :
    isRemainderByTwo e = true ↔ ∃ x, e = .binary .rem x (.intLit 2) := by
  constructor
  · intro h
    cases e with
    | binary op l r =>
      cases r <;> simp [isRemainderByTwo, isIntegerLiteral] at h
      obtain ⟨rfl, rfl⟩ := h
      exact ⟨_, rfl⟩
    | _ => simp [isRemainderByTwo] at h
  · rintro ⟨x, rfl⟩; rfl

theorem isIntegerLiteral_iff (e : Stmt) (n : Nat) : isIntegerLiteral e n = true ↔ e = .intLit n := by
  cases e <;> simp [isIntegerLiteral]

/-- The broken-oddness rule reports exactly `x % 2 == 1` and `1 == x % 2`, for whatever `x`. -/
theorem C46_reports_exactly (s r : Stmt) : r ∈ brokenOddnessVisit s ↔
    r = s ∧ ∃ x, s = .binary .eq (.binary .rem x (.intLit 2)) (.intLit 1) ∨
      s = .binary .eq (.intLit 1) (.binary .rem x (.intLit 2)) := by
  cases s with
  | binary op a b =>
    have hc : (decide (op = .eq) && isRemainderEqualsOne a b) = true ↔
        op = .eq ∧ ∃ x, (a = .binary .rem x (.intLit 2) ∧ b = .intLit 1) ∨
          (a = .intLit 1 ∧ b = .binary .rem x (.intLit 2)) := by
      simp only [isRemainderEqualsOne, Bool.and_eq_true, Bool.or_eq_true, decide_eq_true_eq,
        isIntegerLiteral_iff, isRemainderByTwo_iff]
      refine and_congr_right fun _ => ?_
      constructor
      · rintro (⟨rfl, x, rfl⟩ | ⟨rfl, x, rfl⟩)
        · exact ⟨x, .inl ⟨rfl, rfl⟩⟩
        · exact ⟨x, .inr ⟨rfl, rfl⟩⟩
      · rintro ⟨x, ⟨rfl, rfl⟩ | ⟨rfl, rfl⟩⟩
        · exact .inl ⟨rfl, x, rfl⟩
        · exact .inr ⟨rfl, x, rfl⟩
    simp only [brokenOddnessVisit, Stmt.binary.injEq]
    split
    · next h =>
      obtain ⟨ho, x, hx⟩ := hc.mp h
      rw [List.mem_singleton]
      exact ⟨fun hr => ⟨hr, x, hx.imp (fun h => ⟨ho, h⟩) (fun h => ⟨ho, h⟩)⟩, fun h => h.1⟩
    · next h =>
      simp only [List.not_mem_nil, false_iff]
      rintro ⟨-, x, ⟨ho, hx⟩ | ⟨ho, hx⟩⟩
      · exact h (hc.mpr ⟨ho, x, .inl hx⟩)
      · exact h (hc.mpr ⟨ho, x, .inr hx⟩)
  | _ => simp [brokenOddnessVisit]

theorem toI32_small {i : Int} (h : -(2 ^ 31) ≤ i ∧ i < 2 ^ 31) : toI32 i = some (BitVec.ofInt 32 i) := by
  simp only [toI32, h, and_self, if_true]

theorem toInt_bounds (v : I32) : -(2 ^ 31) ≤ v.toInt ∧ v.toInt < 2 ^ 31 := by
  have h1 := BitVec.le_toInt v
  have h2 := BitVec.toInt_lt (x := v)
  constructor <;> simpa using by assumption

theorem halve (a : Int) :
    (0 ≤ a ∧ a.tdiv 2 = a / 2 ∧ a.tmod 2 = a % 2) ∨
      (a < 0 ∧ a.tdiv 2 = -(-a / 2) ∧ a.tmod 2 = -(-a % 2)) := by
  rcases Int.le_total 0 a with h | h
  · exact .inl ⟨h, Int.tdiv_eq_ediv_of_nonneg h, Int.tmod_eq_emod_of_nonneg h⟩
  · by_cases h0 : a = 0
    · subst h0; exact .inl ⟨by omega, rfl, rfl⟩
    · refine .inr ⟨by omega, ?_, ?_⟩
      · rw [← Int.tdiv_eq_ediv_of_nonneg (by omega : 0 ≤ -a), Int.neg_tdiv, Int.neg_neg]
      · rw [← Int.tmod_eq_emod_of_nonneg (by omega : 0 ≤ -a), Int.neg_tmod, Int.neg_neg]

/-- The value of `x % 2`. -/
theorem intValue_rem_two {env : Nat → I32} {x : Stmt} {v : I32} (h : intValue env x = some v) :
    intValue env (.binary .rem x (.intLit 2)) = some (BitVec.ofInt 32 (v.toInt.tmod 2)) := by
  have hb := toInt_bounds v
  have h2 : intValue env (.intLit 2) = some 2#32 := rfl
  simp only [intValue, h, Option.bind_some]
  rw [show toI32 ((2 : Nat) : Int) = some 2#32 from rfl]
  simp only [Option.bind_some, binaryValue]
  rw [if_neg (by decide), show (2#32 : I32).toInt = 2 from by decide,
    toI32_small (by have := halve v.toInt; omega), Option.bind_some,
    toI32_small (by have := halve v.toInt; omega)]

/-- `x % 2 == 1` is true exactly for the odd numbers that are not negative, so a reported comparison
gives the wrong answer for every negative odd number and the right one for every other number.  For
every 32 bit value of `x`, in both spellings. -/
theorem C46_wrong_exactly_for_negative_odd (s : Stmt) (hs : s ∈ brokenOddnessVisit s) :
    ∃ x, (s = .binary .eq (.binary .rem x (.intLit 2)) (.intLit 1) ∨
        s = .binary .eq (.intLit 1) (.binary .rem x (.intLit 2))) ∧
      ∀ env v, intValue env x = some v → ∃ r, intValue env s = some r ∧
        (r ≠ 0#32 ↔ Odd v.toInt ∧ 0 ≤ v.toInt) ∧
        ((r ≠ 0#32 ↔ Odd v.toInt) ↔ ¬(Odd v.toInt ∧ v.toInt < 0)) := by
  have key : ∀ v : I32, BitVec.ofInt 32 (v.toInt.tmod 2) = 1#32 ↔ Odd v.toInt ∧ 0 ≤ v.toInt := by
    intro v
    have hb := toInt_bounds v
    have hh := halve v.toInt
    rw [Int.odd_iff]
    rcases (by omega : v.toInt.tmod 2 = 0 ∨ v.toInt.tmod 2 = 1 ∨ v.toInt.tmod 2 = -1) with h | h | h
    · rw [h]
      constructor
      · intro h'; exact absurd h' (by decide)
      · intro h'; omega
    · rw [h]
      constructor
      · intro _; omega
      · intro _; rfl
    · rw [h]
      constructor
      · intro h'; exact absurd h' (by decide)
      · intro h'; omega
  have fin : ∀ v r : I32, (r ≠ 0#32 ↔ Odd v.toInt ∧ 0 ≤ v.toInt) →
      ((r ≠ 0#32 ↔ Odd v.toInt) ↔ ¬(Odd v.toInt ∧ v.toInt < 0)) := by
    intro v r hr
    rw [hr, ← not_le]
    by_cases h1 : Odd v.toInt <;> by_cases h2 : 0 ≤ v.toInt <;> simp [h1, h2]
  have one : ∀ env, intValue env (.intLit 1) = some 1#32 := fun _ => rfl
  have test : ∀ p : Bool, ofTest p ≠ 0#32 ↔ p = true := by decide
  obtain ⟨-, x, h⟩ := (C46_reports_exactly _ _).mp hs
  refine ⟨x, h, fun env v hv => ?_⟩
  have hrem := intValue_rem_two hv
  rcases h with rfl | rfl
  · refine ⟨ofTest (decide (BitVec.ofInt 32 (v.toInt.tmod 2) = 1#32)), ?_, ?_⟩
    · rw [intValue, hrem, one]
      · rfl
      · simp
      · simp
    · have h1 : ofTest (decide (BitVec.ofInt 32 (v.toInt.tmod 2) = 1#32)) ≠ 0#32 ↔
          Odd v.toInt ∧ 0 ≤ v.toInt := by rw [test, decide_eq_true_eq, key]
      exact ⟨h1, fin v _ h1⟩
  · refine ⟨ofTest (decide (1#32 = BitVec.ofInt 32 (v.toInt.tmod 2))), ?_, ?_⟩
    · rw [intValue, hrem, one]
      · rfl
      · simp
      · simp
    · have h1 : ofTest (decide (1#32 = BitVec.ofInt 32 (v.toInt.tmod 2))) ≠ 0#32 ↔
          Odd v.toInt ∧ 0 ≤ v.toInt := by rw [test, decide_eq_true_eq, eq_comm, key]
      exact ⟨h1, fin v _ h1⟩

/-- `x % 2 == 1` is reported; it is true for 3 and false for -3. -/
example :
    let x : Stmt := .cast .implicit .lvalueToRvalue (.declRef ⟨0, "x".toList⟩)
    let s : Stmt := .binary .eq (.binary .rem x (.intLit 2)) (.intLit 1)
    s ∈ brokenOddnessVisit s ∧ intValue (fun _ => 3#32) s = some 1#32 ∧
      intValue (fun _ => -3#32) s = some 0#32 := by
  exact ⟨(C46_reports_exactly _ _).mpr ⟨rfl, _, .inl rfl⟩, rfl, rfl⟩

/-! ## C47 -/

theorem stripParens_iff (e x : Stmt) : stripParens e = x ↔ Unparen e x := by
  constructor
  · intro h
    induction e using Stmt.kidsInd with
    | ih s ih =>
      cases s with
      | paren e => exact .step (ih e (by simp [Stmt.kids]) h)
      | _ => exact h ▸ .done (by simp [stripParens])
  · intro h
    induction h with
    | @done x hx =>
      cases x with
      | paren y => exact absurd rfl (hx y)
      | _ => rfl
    | step _ ih => simpa [stripParens] using ih

/-- The double-negative rule reports exactly `!` of `!` and `~` of `~`, with or without parentheses
in between. -/
theorem C47_double_reports_exactly (s r : Stmt) : r ∈ doubleNegativeVisit s ↔
    r = s ∧ ∃ op sub e, s = .unary op sub ∧ Unparen sub (.unary op e) ∧ (op = .lnot ∨ op = .not) := by
  cases s with
  | unary op sub =>
    simp only [doubleNegativeVisit, ← stripParens_iff]
    cases hy : stripParens sub with
    | unary op' e =>
      cases op <;> cases op' <;> simp [bothNegations, hy]
    | _ => simp [hy]
  | _ => simp [doubleNegativeVisit]

/-- The operators of the multiple-unary rule. -/
def Sign (op : UnOp) : Prop := op = .plus ∨ op = .minus ∨ op = .not ∨ op = .lnot

/-- The multiple-unary rule reports exactly one of `+ - ~ !` applied to one of `+ - ~ !`, with or
without parentheses in between. -/
theorem C47_multiple_reports_exactly (s r : Stmt) : r ∈ multipleUnaryVisit s ↔
    r = s ∧ ∃ op op' sub e, s = .unary op sub ∧ Unparen sub (.unary op' e) ∧ Sign op ∧ Sign op' := by
  cases s with
  | unary op sub =>
    simp only [multipleUnaryVisit, ← stripParens_iff]
    cases hy : stripParens sub with
    | unary op' e =>
      cases op <;> cases op' <;> simp [isTargetUnary, Sign, hy]
    | _ => simp [hy]
  | _ => simp [multipleUnaryVisit]

/-- Whatever the double-negative rule reports, the multiple-unary rule reports as well. -/
theorem C47_double_is_multiple (s : Stmt) (h : s ∈ doubleNegativeVisit s) : s ∈ multipleUnaryVisit s := by
  obtain ⟨-, op, sub, e, rfl, hu, hop⟩ := (C47_double_reports_exactly _ _).mp h
  refine (C47_multiple_reports_exactly _ _).mpr ⟨rfl, op, op, sub, e, rfl, hu, ?_, ?_⟩ <;>
    rcases hop with rfl | rfl <;> simp [Sign]

section
variable {σ V : Type} (W : World σ V)

theorem eval_unparen {e x : Stmt} (h : Unparen e x) (s : σ) : eval W e s = eval W x s := by
  induction h with
  | done => rfl
  | step _ ih => rw [← ih]; simp [eval]

/-- A reported `!!e` does what `e` does: it ends in the same way and in the same state, and its value
has the truth of the value of `e`. -/
theorem C47_not_not_truth (e sub : Stmt) (h : Unparen sub (.unary .lnot e)) (s : σ) :
    eval W (.unary .lnot sub) s =
      Res.andThen (eval W e s) fun v s => some (.val (W.ofBool (W.truth v)) s) := by
  simp only [eval, eval_unparen W h]
  rcases eval W e s with _ | ⟨v, s'⟩ | s' <;> simp [Res.andThen, W.truth_ofBool]

/-- So `e` can replace a reported `!!e` as the condition of an `if`. -/
theorem C47_not_not_condition (e sub t : Stmt) (p els : Option Stmt)
    (h : Unparen sub (.unary .lnot e)) :
    Same W (.ifS p (.unary .lnot sub) t els) (.ifS p e t els) := by
  refine ⟨fun x => by simp [hasEntry], fun x s o s' => ?_⟩
  by_cases hx : x = .start
  · subst hx
    simp only [run_if_branch, C47_not_not_truth W e sub h]
    apply or_congr Iff.rfl
    refine exists_congr fun s1 => and_congr_right fun _ => ?_
    rcases eval W e s1 with _ | ⟨v, s2⟩ | s2 <;> simp [Res.andThen, branch, W.truth_ofBool]
  · simp only [run_if_enter hx]

end

theorem intValue_unparen (env : Nat → I32) {e x : Stmt} (h : Unparen e x) :
    intValue env e = intValue env x := by
  induction h with
  | done => rfl
  | step _ ih => rw [← ih]; simp [intValue]

/-- A reported `~~e` equals `e`, for every bit pattern. -/
theorem C47_complement_twice (env : Nat → I32) (e sub : Stmt) (h : Unparen sub (.unary .not e)) :
    intValue env (.unary .not sub) = intValue env e := by
  simp only [intValue, intValue_unparen env h]
  rcases intValue env e with _ | v <;> simp [unaryValue]

/-- The other double signs: `+ +e` is `e`, and `- -e` is `e` unless `-e` overflows, in which case it
is undefined. -/
theorem C47_signs_twice (env : Nat → I32) (e sub : Stmt) :
    (Unparen sub (.unary .plus e) → intValue env (.unary .plus sub) = intValue env e) ∧
    (Unparen sub (.unary .minus e) → ∀ v, intValue env e = some v →
      (v.toInt ≠ -(2 ^ 31) → intValue env (.unary .minus sub) = some v) ∧
      (v.toInt = -(2 ^ 31) → intValue env (.unary .minus sub) = none)) := by
  constructor
  · intro h
    simp only [intValue, intValue_unparen env h]
    rcases intValue env e with _ | v <;> simp [unaryValue]
  · intro h v hv
    have hb := toInt_bounds v
    simp only [intValue, intValue_unparen env h, hv, Option.bind_some, unaryValue]
    constructor
    · intro hne
      rw [toI32_small (by omega), Option.bind_some, unaryValue]
      have : (BitVec.ofInt 32 (-v.toInt)).toInt = -v.toInt := by
        rw [BitVec.toInt_ofInt]
        exact Int.bmod_eq_of_le (by norm_num; omega) (by norm_num; omega)
      rw [this, Int.neg_neg, toI32_small hb, BitVec.ofInt_toInt]
    · intro heq
      rw [heq]
      rfl

example : Stmt.unary .lnot (.paren (.unary .lnot (.declRef ⟨0, []⟩))) ∈
    doubleNegativeVisit (.unary .lnot (.paren (.unary .lnot (.declRef ⟨0, []⟩)))) :=
  (C47_double_reports_exactly _ _).mpr ⟨rfl, _, _, _, rfl, .step (.done (by simp)), .inl rfl⟩

/-! ## C48 -/

/-- The two rules report exactly the conditions that Clang can evaluate. -/
theorem C48_reports_exactly (ev : Stmt → Option Bool) (s r : Stmt) :
    (r ∈ constantIfVisit ev s ↔ ∃ p t e b, s = .ifS p r t e ∧ ev r = some b) ∧
    (r ∈ constantConditionalVisit ev s ↔ ∃ t f b, s = .condOp r t f ∧ ev r = some b) := by
  constructor
  · cases s with
    | ifS p c t e =>
      simp only [constantIfVisit]
      split
      · next h =>
        obtain ⟨b, hb⟩ := Option.isSome_iff_exists.mp h
        simp only [List.mem_singleton, Stmt.ifS.injEq]
        constructor
        · rintro rfl; exact ⟨p, t, e, b, ⟨rfl, rfl, rfl, rfl⟩, hb⟩
        · rintro ⟨p', t', e', b', ⟨-, rfl, -⟩, -⟩; rfl
      · next h =>
        simp only [List.not_mem_nil, Stmt.ifS.injEq, false_iff]
        rintro ⟨p', t', e', b', ⟨-, rfl, -⟩, h'⟩
        simp [h'] at h
    | _ => simp [constantIfVisit]
  · cases s with
    | condOp c t e =>
      simp only [constantConditionalVisit]
      split
      · next h =>
        obtain ⟨b, hb⟩ := Option.isSome_iff_exists.mp h
        simp only [List.mem_singleton, Stmt.condOp.injEq]
        constructor
        · rintro rfl; exact ⟨t, e, b, ⟨rfl, rfl, rfl⟩, hb⟩
        · rintro ⟨t', e', b', ⟨rfl, -⟩, -⟩; rfl
      · next h =>
        simp only [List.not_mem_nil, Stmt.condOp.injEq, false_iff]
        rintro ⟨t', e', b', ⟨rfl, -⟩, h'⟩
        simp [h'] at h
    | _ => simp [constantConditionalVisit]

section
variable {σ V : Type} (W : World σ V)

/-- The evaluator is right: if it gives a truth value, the expression has this one whenever its
evaluation ends with a value.  (Clang also folds expressions with side effects.) -/
def Evaluator (ev : Stmt → Option Bool) : Prop :=
  ∀ c b, ev c = some b → ∀ s v s', eval W c s = some (.val v s') → W.truth v = b

/-- A reported condition has the same truth value in every state: one of the branches of the reported
`if` does not matter, and the reported conditional operator always has the value of the same
operand. -/
theorem C48_constant (ev : Stmt → Option Bool) (hev : Evaluator W ev) (s c : Stmt) :
    (c ∈ constantIfVisit ev s ∨ c ∈ constantConditionalVisit ev s →
      ∃ b, ∀ s0 v s', eval W c s0 = some (.val v s') → W.truth v = b) ∧
    (c ∈ constantIfVisit ev s → ∃ p t e, s = .ifS p c t e ∧
      ((∀ e' s0 o s', Run W .start s s0 o s' ↔ Run W .start (.ifS p c t e') s0 o s') ∨
        (∀ t' s0 o s', Run W .start s s0 o s' ↔ Run W .start (.ifS p c t' e) s0 o s'))) ∧
    (c ∈ constantConditionalVisit ev s → ∃ t f x, s = .condOp c t f ∧ (x = t ∨ x = f) ∧
      ∀ s0, eval W s s0 = Res.andThen (eval W c s0) fun _ s1 => eval W x s1) := by
  refine ⟨?_, ?_, ?_⟩
  · rintro (h | h)
    · obtain ⟨p, t, e, b, rfl, hb⟩ := ((C48_reports_exactly ev _ _).1).mp h
      exact ⟨b, hev c b hb⟩
    · obtain ⟨t, f, b, rfl, hb⟩ := ((C48_reports_exactly ev _ _).2).mp h
      exact ⟨b, hev c b hb⟩
  · intro h
    obtain ⟨p, t, e, b, rfl, hb⟩ := ((C48_reports_exactly ev _ _).1).mp h
    refine ⟨p, t, e, rfl, ?_⟩
    cases b with
    | true =>
      left
      intro e' s0 o s'
      simp only [run_if_branch]
      apply or_congr Iff.rfl
      refine exists_congr fun s1 => and_congr_right fun _ => ?_
      rcases hc : eval W c s1 with _ | ⟨v, s2⟩ | s2 <;> simp [branch]
      simp [hev c _ hb _ _ _ hc]
    | false =>
      right
      intro t' s0 o s'
      simp only [run_if_branch]
      apply or_congr Iff.rfl
      refine exists_congr fun s1 => and_congr_right fun _ => ?_
      rcases hc : eval W c s1 with _ | ⟨v, s2⟩ | s2 <;> simp [branch]
      simp [hev c _ hb _ _ _ hc]
  · intro h
    obtain ⟨t, f, b, rfl, hb⟩ := ((C48_reports_exactly ev _ _).2).mp h
    cases b with
    | true =>
      refine ⟨t, f, t, rfl, .inl rfl, fun s0 => ?_⟩
      simp only [eval]
      rcases hc : eval W c s0 with _ | ⟨v, s2⟩ | s2 <;> simp [Res.andThen]
      simp [hev c _ hb _ _ _ hc]
    | false =>
      refine ⟨t, f, f, rfl, .inr rfl, fun s0 => ?_⟩
      simp only [eval]
      rcases hc : eval W c s0 with _ | ⟨v, s2⟩ | s2 <;> simp [Res.andThen]
      simp [hev c _ hb _ _ _ hc]

end

/-- Folding of boolean literals and logical operators, as an instance of an evaluator. -/
def foldLogic : Stmt → Option Bool
  | .boolLit b => some b
  | .paren e => foldLogic e
  | .unary .lnot e => (foldLogic e).map (!·)
  | .binary .land a b =>
    match foldLogic a with
    | some false => some false
    | some true => foldLogic b
    | none => none
  | .binary .lor a b =>
    match foldLogic a with
    | some true => some true
    | some false => foldLogic b
    | none => none
  | _ => none

/-- The hypothesis on the evaluator can be met, for every `World`. -/
theorem foldLogic_evaluator {σ V : Type} (W : World σ V) : Evaluator W foldLogic := by
  intro c
  induction c using Stmt.kidsInd with
  | ih c ih =>
    intro b h s v s' hv
    cases c with
    | boolLit x =>
      simp only [foldLogic, Option.some.injEq] at h
      simp only [eval, W.lit_bool, Option.some.injEq, Res.val.injEq] at hv
      rw [← hv.1, W.truth_ofBool, h]
    | paren e =>
      exact ih e (by simp [Stmt.kids]) b h s v s' (by simpa [eval] using hv)
    | unary op e =>
      cases op with
      | lnot =>
        simp only [foldLogic, Option.map_eq_some_iff] at h
        obtain ⟨x, hx, rfl⟩ := h
        simp only [eval] at hv
        rcases he : eval W e s with _ | ⟨w, s2⟩ | s2 <;> simp [he, Res.andThen] at hv
        rw [← hv.1, W.truth_ofBool, ih e (by simp [Stmt.kids]) x hx _ _ _ he]
      | _ => simp [foldLogic] at h
    | binary op l r =>
      cases op with
      | land =>
        simp only [eval] at hv
        rcases he : eval W l s with _ | ⟨w, s2⟩ | s2 <;> simp [he, Res.andThen] at hv
        rcases hl : foldLogic l with _ | x
        · simp [foldLogic, hl] at h
        · have hw := ih l (by simp [Stmt.kids]) x hl _ _ _ he
          cases x
          · simp [foldLogic, hl] at h
            simp [hw] at hv
            rw [← hv.1, W.truth_ofBool, h]
          · simp [foldLogic, hl] at h
            simp only [hw, if_true] at hv
            rcases hr : eval W r s2 with _ | ⟨w', s3⟩ | s3 <;> simp [hr] at hv
            rw [← hv.1, W.truth_ofBool]
            exact ih r (by simp [Stmt.kids]) b h _ _ _ hr
      | lor =>
        simp only [eval] at hv
        rcases he : eval W l s with _ | ⟨w, s2⟩ | s2 <;> simp [he, Res.andThen] at hv
        rcases hl : foldLogic l with _ | x
        · simp [foldLogic, hl] at h
        · have hw := ih l (by simp [Stmt.kids]) x hl _ _ _ he
          cases x
          · simp [foldLogic, hl] at h
            simp only [hw, Bool.false_eq_true, if_false] at hv
            rcases hr : eval W r s2 with _ | ⟨w', s3⟩ | s3 <;> simp [hr] at hv
            rw [← hv.1, W.truth_ofBool]
            exact ih r (by simp [Stmt.kids]) b h _ _ _ hr
          · simp [foldLogic, hl] at h
            simp [hw] at hv
            rw [← hv.1, W.truth_ofBool, h]
      | _ => simp [foldLogic] at h
    | _ => simp [foldLogic] at h

/-- `if (true || x) ;` is reported. -/
example : Stmt.binary .lor (.boolLit true) (.declRef ⟨0, []⟩) ∈ constantIfVisit foldLogic
    (.ifS none (.binary .lor (.boolLit true) (.declRef ⟨0, []⟩)) .nullS none) :=
  ((C48_reports_exactly _ _ _).1).mpr ⟨_, _, _, true, rfl, rfl⟩

end Oclint
