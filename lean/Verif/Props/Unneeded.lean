import Verif.Props.NullChecks
import Verif.Spec.Unneeded
import Verif.Lemmas.Semantics

/-!
# C66, C67: null checks that are not needed
-/

namespace Oclint
open Spec

/-! ## C66 -/

theorem isANullPointerExpr_iff (e : Stmt) : isANullPointerExpr e = true ↔ NullUnderCasts e := by
  constructor
  · intro h
    induction e using Stmt.kidsInd with
    | ih e ih =>
      unfold isANullPointerExpr at h
      split at h
      · next f k x =>
        split at h
        · next hk => subst hk; exact .here
        · exact .deeper (ih x (by simp [Stmt.kids]) h)
      · cases h
  · intro h
    induction h with
    | here => simp [isANullPointerExpr]
    | deeper _ ih => simp [isANullPointerExpr, ih]

theorem ignoreCastExpr_iff (e x : Stmt) : ignoreCastExpr e = x ↔ Uncast e x := by
  constructor
  · rintro rfl
    induction e using Stmt.kidsInd with
    | ih e ih =>
      unfold ignoreCastExpr
      split
      · exact .step (ih _ (by simp [Stmt.kids]))
      · next h => exact .done fun f k x he => h f k x he
  · intro h
    induction h with
    | @done e h =>
      unfold ignoreCastExpr
      split
      · exact absurd rfl (h _ _ _)
      · rfl
    | step _ ih => simpa [ignoreCastExpr] using ih

theorem conditionPointer_iff (c p : Stmt) : conditionPointer c = some p ↔ AsksFor c p := by
  unfold AsksFor
  by_cases hb : ∃ op l r, c = .binary op l r
  · obtain ⟨op, l, r, rfl⟩ := hb
    by_cases hop : op = .ne
    · subst hop
      simp only [conditionPointer, ne_eq, not_true_eq_false, if_false]
      constructor
      · intro h
        split at h
        · next hl =>
          cases h
          exact .inl ⟨l, r, rfl, .inl ⟨(isANullPointerExpr_iff _).1 hl, (ignoreCastExpr_iff _ _).1 rfl⟩⟩
        · next hl =>
          split at h
          · next hr =>
            cases h
            exact .inl ⟨l, r, rfl, .inr ⟨fun h => hl ((isANullPointerExpr_iff _).2 h),
              (isANullPointerExpr_iff _).1 hr, (ignoreCastExpr_iff _ _).1 rfl⟩⟩
          · cases h
      · rintro (⟨l', r', h, ⟨h1, h2⟩ | ⟨h1, h2, h3⟩⟩ | ⟨h, -⟩)
        · cases h
          rw [if_pos ((isANullPointerExpr_iff _).2 h1), (ignoreCastExpr_iff _ _).2 h2]
        · cases h
          rw [if_neg (fun h => h1 ((isANullPointerExpr_iff _).1 h)),
            if_pos ((isANullPointerExpr_iff _).2 h2), (ignoreCastExpr_iff _ _).2 h3]
        · exact absurd rfl (h _ _ _)
    · simp only [conditionPointer, ne_eq, hop, not_false_eq_true, if_true, reduceCtorEq, false_iff]
      rintro (⟨l', r', h, -⟩ | ⟨h, -⟩)
      · cases h; exact hop rfl
      · exact h _ _ _ rfl
  · have hb' : ∀ op l r, c ≠ .binary op l r := fun op l r h => hb ⟨op, l, r, h⟩
    have : conditionPointer c = some (ignoreCastExpr c) := by
      unfold conditionPointer
      split
      · exact absurd rfl (hb' _ _ _)
      · rfl
    rw [this, Option.some.injEq, ignoreCastExpr_iff]
    constructor
    · intro h; exact .inr ⟨hb', h⟩
    · rintro (⟨l, r, h, -⟩ | ⟨-, h⟩)
      · exact absurd h (hb' _ _ _)
      · exact h

theorem isDeleteOf_iff (same : Stmt → Stmt → Bool) (s p : Stmt) :
    isDeleteOf same s p = true ↔ DeletesIt same p s := by
  unfold DeletesIt
  cases s with
  | deleteE a =>
    simp only [isDeleteOf, Stmt.deleteE.injEq]
    constructor
    · intro h; exact ⟨a, _, rfl, (ignoreCastExpr_iff _ _).1 rfl, h⟩
    · rintro ⟨a, x, rfl, hx, h⟩; rw [(ignoreCastExpr_iff _ _).2 hx]; exact h
  | _ => simp [isDeleteOf]

theorem isNullAssignment_iff (same : Stmt → Stmt → Bool) (s p : Stmt) :
    isNullAssignment same s p = true ↔ ClearsIt same p s := by
  unfold ClearsIt
  cases s with
  | binary op l r =>
    simp only [isNullAssignment, Stmt.binary.injEq]
    constructor
    · intro h
      split at h
      · cases h
      · next hop =>
        rw [Bool.and_eq_true] at h
        exact ⟨l, r, _, ⟨not_not.1 hop, rfl, rfl⟩, (isANullPointerExpr_iff _).1 h.1,
          (ignoreCastExpr_iff _ _).1 rfl, h.2⟩
    · rintro ⟨l, r, x, ⟨rfl, rfl, rfl⟩, hr, hx, h⟩
      rw [(ignoreCastExpr_iff _ _).2 hx]
      simp [(isANullPointerExpr_iff _).2 hr, h]
  | _ => simp [isNullAssignment]

theorem isDeleteBlock_iff (same : Stmt → Stmt → Bool) (t p : Stmt) :
    isDeleteBlock same t p = true ↔ DeletesOnly same p t := by
  unfold isDeleteBlock DeletesOnly
  split
  · next a =>
    rw [isDeleteOf_iff]
    constructor
    · intro h; exact .inr (.inl ⟨a, rfl, h⟩)
    · rintro (⟨_, _, h, -⟩ | ⟨d, h, hd⟩ | ⟨d, c, h, -⟩) <;> cases h
      exact hd
  · next a b =>
    rw [Bool.and_eq_true, isDeleteOf_iff, isNullAssignment_iff]
    constructor
    · intro h; exact .inr (.inr ⟨a, b, rfl, h⟩)
    · rintro (⟨_, _, h, -⟩ | ⟨d, h, hd⟩ | ⟨d, c, h, hd⟩) <;> cases h
      exact hd
  · next l h1 h2 =>
    simp only [Bool.false_eq_true, false_iff]
    rintro (⟨_, _, h, -⟩ | ⟨d, h, hd⟩ | ⟨d, c, h, hd⟩) <;> cases h
    · exact h1 _ rfl
    · exact h2 _ _ rfl
  · next h1 h2 h3 =>
    rw [isDeleteOf_iff]
    constructor
    · exact .inl
    · rintro (h | ⟨d, h, hd⟩ | ⟨d, c, h, hd⟩)
      · exact h
      · exact absurd h (h3 _)
      · exact absurd h (h3 _)

/-- The rule reports exactly the `if` statements without `else` that ask whether a pointer is not
null and then only delete it, or delete it and set it to null. -/
theorem C66_reports_exactly (same : Stmt → Stmt → Bool) (s r : Stmt) :
    r ∈ nullCheckDeallocVisit same s ↔ r = s ∧ ∃ pre c t p, s = .ifS pre c t none ∧ AsksFor c p ∧
      DeletesOnly same p t := by
  cases s with
  | ifS pre c t e =>
    cases e with
    | some e => simp [nullCheckDeallocVisit]
    | none =>
      have hv : nullCheckDeallocVisit same (.ifS pre c t none) =
          match conditionPointer c with
          | some p => if isDeleteBlock same t p then [.ifS pre c t none] else []
          | none => [] := rfl
      rw [hv]
      split
      · next p hp =>
        rw [mem_if_self, isDeleteBlock_iff]
        refine and_congr_right fun _ => ?_
        constructor
        · intro h; exact ⟨pre, c, t, p, rfl, (conditionPointer_iff _ _).1 hp, h⟩
        · rintro ⟨pre', c', t', p', h, hp', ht⟩
          cases h
          rw [← conditionPointer_iff, hp] at hp'
          cases hp'
          exact ht
      · next hp =>
        simp only [List.not_mem_nil, false_iff]
        rintro ⟨-, pre', c', t', p', h, hp', -⟩
        cases h
        rw [← conditionPointer_iff, hp] at hp'
        cases hp'
  | _ => simp [nullCheckDeallocVisit]

section
variable {σ V : Type} (W : World σ V)

theorem run_deletesIt {same p x} (hx : DeletesIt same p x ∨ ClearsIt same p x) {s : σ} {v : V} {s1 : σ}
    (h : eval W x s = some (.val v s1)) (o : Out V) (s' : σ) :
    Run W .start x s o s' ↔ o = .normal ∧ s' = s1 := by
  constructor
  · intro hr
    rcases hx with ⟨_, _, rfl, -⟩ | ⟨_, _, _, rfl, -⟩
    all_goals
      cases hr with
      | expr _ h' => rw [h] at h'; cases h'; exact ⟨rfl, rfl⟩
      | exprThrow _ h' => rw [h] at h'; cases h'
      | other h' => cases h'
  · rintro ⟨rfl, rfl⟩
    rcases hx with ⟨_, _, rfl, -⟩ | ⟨_, _, _, rfl, -⟩ <;> exact .expr rfl h

theorem hasEntry_deletesIt {same p x} (hx : DeletesIt same p x ∨ ClearsIt same p x) (e : Entry V) :
    hasEntry W e x = true ↔ e = .start := by
  rcases hx with ⟨_, _, rfl, -⟩ | ⟨_, _, _, rfl, -⟩ <;> cases e <;> simp [hasEntry]

/-- Full claim: a reported check can be dropped.  Proved: when it has no init statement, asking has
no effect, and deleting null and setting a null pointer to null have none.  Missing: conditions with
effects, see `C66_effect_witness`. -/
theorem C66_advice_partial (same : Stmt → Stmt → Bool) (c t : Stmt)
    (hs : .ifS none c t none ∈ nullCheckDeallocVisit same (.ifS none c t none))
    (hw : NullHarmless W c t) : Same W (.ifS none c t none) t := by
  obtain ⟨-, pre, c', t', p, h, -, ht⟩ := (C66_reports_exactly same _ _).1 hs
  cases h
  have hent : ∀ e : Entry V, e ≠ .start → hasEntry W e t = false := by
    intro e he
    cases e with
    | start => exact absurd rfl he
    | _ =>
      rcases ht with ⟨_, _, rfl, -⟩ | ⟨d, rfl, _, _, rfl, -⟩ |
        ⟨d, c, rfl, ⟨_, _, rfl, -⟩, _, _, _, rfl, -⟩ <;> simp [hasEntry, hasEntryL]
  refine ⟨fun e => ?_, fun e s o s' => ?_⟩
  · by_cases he : e = .start
    · subst he
      rcases ht with ⟨_, _, rfl, -⟩ | ⟨d, rfl, _, _, rfl, -⟩ |
        ⟨d, c, rfl, ⟨_, _, rfl, -⟩, _, _, _, rfl, -⟩ <;> simp [hasEntry]
    · have := hent e he
      cases e with
      | start => exact absurd rfl he
      | _ => simp [hasEntry, hasEntryO, this]
  · by_cases he : e = .start
    · subst he
      obtain ⟨v, hv, hn⟩ := hw s
      have hx : ∀ x ∈ statementsOf t, DeletesIt same p x ∨ ClearsIt same p x → W.truth v = false →
          ∀ o s', Run W .start x s o s' ↔ o = .normal ∧ s' = s := by
        intro x hm hx hf o s'
        obtain ⟨w, hw⟩ := hn hf x hm
        exact run_deletesIt W hx hw o s'
      rw [run_if_branch]
      simp only [runO_none, true_and, exists_eq_left, hv, branch]
      have h0 : ¬ ((o = Out.normal ∧ s' = s) ∧ o ≠ Out.normal) := fun h => h.2 h.1.1
      simp only [h0, false_or]
      split
      · exact Iff.rfl
      · next hf =>
        have hf : W.truth v = false := by simpa using hf
        have hcons : ∀ x l, x ∈ statementsOf t → DeletesIt same p x ∨ ClearsIt same p x →
            (RunL W .start (x :: l) s o s' ↔ RunL W .start l s o s') := by
          intro x l hm hxx
          rw [runL_cons_start]
          constructor
          · rintro (⟨h1, h2⟩ | ⟨s1, h1, h2⟩)
            · exact absurd ((hx x hm hxx hf _ _).1 h1).1 h2
            · rw [((hx x hm hxx hf _ _).1 h1).2] at h2; exact h2
          · intro h; exact .inr ⟨s, (hx x hm hxx hf _ _).2 ⟨rfl, rfl⟩, h⟩
        rcases ht with hd | ⟨d, rfl, hd⟩ | ⟨d, c, rfl, hd, hc⟩
        · refine (hx _ ?_ (.inl hd) hf _ _).symm
          obtain ⟨_, _, rfl, -⟩ := hd
          simp [statementsOf]
        · rw [run_compound, hcons _ _ (by simp [statementsOf]) (.inl hd), runL_nil]; simp
        · rw [run_compound, hcons _ _ (by simp [statementsOf]) (.inl hd),
            hcons _ _ (by simp [statementsOf]) (.inr hc), runL_nil]; simp
    · rw [run_if_enter he, hent e he]
      simp only [Bool.false_eq_true, false_and, reduceCtorEq, and_false, exists_false, or_false,
        false_iff]
      intro hr
      have := hent e he
      rw [run_hasEntry hr] at this; cases this

end

/-- A small machine: the state is a pointer, 0 being null; calls return it and move it on, and so does
deleting the result of a call. -/
def heap : World Int Int := { machine with
  atom := fun e s => match e with
    | .call _ _ => some (.val s (s + 1))
    | .deleteE (.call _ _) => some (.val 0 (s + 1))
    | .message _ _ _ _ => some (.val s s)
    | _ => some (.val s s)
  operands := fun _ r s => match r with
    | .intLit n => some (.val (s, (n : Int)) s)
    | _ => none }

/-- `if (p) { delete p; }` is reported, and the conditions of `C66_advice_partial` hold for it. -/
example :
    let p : Stmt := .declRef ⟨1, ['p']⟩
    let c : Stmt := .cast .implicit .pointerToBoolean (.cast .implicit .lvalueToRvalue p)
    let t : Stmt := .compound [.deleteE (.cast .implicit .lvalueToRvalue p)]
    let same : Stmt → Stmt → Bool := fun a b => match a, b with
      | .declRef d, .declRef d' => decide (d = d')
      | _, _ => false
    nullCheckDeallocVisit same (.ifS none c t none) = [.ifS none c t none] ∧
    NullHarmless heap c t := by
  refine ⟨rfl, fun s => ⟨s, rfl, fun _ x hx => ?_⟩⟩
  rw [statementsOf, List.mem_singleton] at hx
  subst hx
  exact ⟨s, rfl⟩

/-- The full claim is wrong: `if (f()) delete f();` is reported, but calls `f` twice. -/
theorem C66_effect_witness :
    let f : Stmt := .call (.declRef ⟨1, ['f']⟩) []
    let same : Stmt → Stmt → Bool := fun a b => match a, b with
      | .call (.declRef d) [], .call (.declRef d') [] => decide (d = d')
      | _, _ => false
    let s : Stmt := .ifS none f (.deleteE f) none
    s ∈ nullCheckDeallocVisit same s ∧ ¬ Same heap s (.deleteE f) := by
  refine ⟨List.mem_singleton.2 rfl, fun h => ?_⟩
  have h1 : Run heap .start (.deleteE (.call (.declRef ⟨1, ['f']⟩) [])) 1 .normal 2 := .expr rfl rfl
  have h2 := (h.2 .start 1 .normal 2).2 h1
  rw [run_if_branch] at h2
  rcases h2 with ⟨-, h2⟩ | ⟨s1, h2, h3⟩
  · exact h2 rfl
  · rw [runO_none] at h2
    obtain ⟨-, rfl⟩ := h2
    have h3 : Run heap .start (.deleteE (.call (.declRef ⟨1, ['f']⟩) [])) 2 .normal 2 := h3
    cases h3 with
    | expr _ h => cases h
    | other h => cases h

/-! ## C67 -/

section
variable {σ V : Type} (W : World σ V)

/-- Full claim: a nil check reported as redundant can be dropped.  Proved: when the other operand is
the message itself (possibly in parentheses) and has no arguments, and reading the variable and
messages to nil have no effect and give something false, then the operand alone ends in the same way
and state, and its value has the truth of that of the conjunction.  Missing: messages inside of other
expressions, see `C67_witness`. -/
theorem C67_advice_partial (a b c r sel) (hb : Unparen b (.message c (some r) sel []))
    (hw : NilHarmless W a (.message c (some r) sel [])) (s : σ) :
    eval W (.binary .land a b) s =
      Res.andThen (eval W b s) fun v s => some (.val (W.ofBool (W.truth v)) s) := by
  obtain ⟨v, hv, hf⟩ := hw s
  simp only [eval, hv, Res.andThen]
  cases ht : W.truth v with
  | true => rfl
  | false =>
    obtain ⟨w, hw, hwf⟩ := hf ht
    rw [eval_unparen W hb, hw]
    simp [hwf]

end

/-- The rule reports the case of `C67_advice_partial`. -/
theorem C67_reported (n : Str) (hn : n ≠ []) (a b c r sel) (ha : AsksNonNull n a)
    (hb : Unparen b (.message c (some r) sel [])) (hr : ReadOf n r) :
    .binary .land a b ∈ redundantNilVisit (.binary .land a b) := by
  refine (C52_redundant_nil _ _).2 ⟨rfl, n, a, b, hn, rfl, ha, ?_, _, (below_nodes _ _).2 ?_,
    c, r, sel, [], rfl, hr⟩
  · rintro e rfl
    cases hb
  · generalize hm : Stmt.message c (some r) sel [] = m at hb ⊢
    clear ha hm
    induction hb with
    | done => exact Stmt.self_mem_nodes _
    | step _ ih => rw [Stmt.nodes_eq]; simp [Stmt.kids, ih]

/-- The full claim is wrong: `o && [o count] == 0` is reported; when `o` is nil, it is false, but
`[o count] == 0` is true. -/
theorem C67_witness :
    let o : Stmt := .cast .implicit .lvalueToRvalue (.declRef ⟨1, ['o']⟩)
    let b : Stmt := .binary .eq (.message none (some o) "count".toList []) (.intLit 0)
    let s : Stmt := .binary .land o b
    s ∈ redundantNilVisit s ∧ NilHarmless heap o (.message none (some o) "count".toList []) ∧
      eval heap s 0 = some (.val 0 0) ∧ eval heap b 0 = some (.val 1 0) := by
  refine ⟨List.mem_singleton.2 rfl, fun s => ⟨s, rfl, fun h => ⟨s, rfl, h⟩⟩, rfl, rfl⟩

end Oclint
