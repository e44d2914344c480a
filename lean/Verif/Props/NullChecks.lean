import Verif.Model.RulesNull
import Verif.Spec.NullChecks
import Verif.Spec.Semantics
import Verif.Lemmas.Rules
import Verif.Props.Expressions

/-!
# C52: null checks, and C66, C67: checks that are not needed
-/

namespace Oclint
open Spec

/-! ## The shapes -/

theorem isNullToPointer_iff (e : Stmt) : isNullToPointer e = true ↔ NullConstant e := by
  constructor
  · intro h
    unfold isNullToPointer at h
    split at h
    · next kind sub =>
      split at h
      · next hk => subst hk; exact .direct
      · split at h
        · next hk =>
          subst hk
          split at h
          · next k x hs => 
            rw [decide_eq_true_eq] at h
            subst h
            exact .converted ((stripParens_iff _ _).1 hs)
          · cases h
        · cases h
    · cases h
  · intro h
    cases h with
    | direct => rfl
    | converted h =>
      have := (stripParens_iff _ _).2 h
      simp [isNullToPointer, this]

/-- The name found is that of the variable that is read. -/
theorem identifierOfCast_iff (e : Stmt) (n : Str) (hn : n ≠ []) :
    identifierOfCast e = n ↔ ReadOf n e := by
  constructor
  · intro h
    induction e using Stmt.kidsInd with
    | ih e ih =>
      unfold identifierOfCast at h
      split at h
      · next kind sub =>
        split at h
        · next hk => subst hk; exact .toBool (ih sub (by simp [Stmt.kids]) h)
        · next hk =>
          split at h
          · exact .read hk h
          · exact absurd h.symm hn
      · exact absurd h.symm hn
  · intro h
    induction h with
    | read hk hd => simp [identifierOfCast, hk, hd]
    | toBool _ ih => simp [identifierOfCast, ih]

theorem truthOf_iff (e : Stmt) (n : Str) (hn : n ≠ []) :
    isImplicitDeclRef e = true ∧ identifierOfCast e = n ↔ TruthOf n e := by
  constructor
  · rintro ⟨h, hi⟩
    unfold isImplicitDeclRef at h
    split at h
    · next kind sub =>
      split at h
      · next hk =>
        subst hk
        cases (identifierOfCast_iff _ _ hn).1 hi with
        | read hk _ => exact absurd rfl hk
        | toBool h => exact .cxx h
      · split at h
        · next hk =>
          subst hk
          split at h
          · exact .c (by simpa [identifierOfCast] using hi)
          · cases h
        · cases h
    · cases h
  · intro h
    cases h with
    | c hd => simp [isImplicitDeclRef, identifierOfCast, hd]
    | cxx h =>
      exact ⟨by simp [isImplicitDeclRef], (identifierOfCast_iff _ _ hn).2 (.toBool h)⟩

theorem comparesNull_iff (l r : Stmt) (n : Str) (hn : n ≠ []) :
    ((isNullToPointer l != isNullToPointer r) = true ∧
      (if isNullToPointer l then identifierOfCast r else identifierOfCast l) = n) ↔
      ComparesNull n l r := by
  have hl := isNullToPointer_iff l
  have hr := isNullToPointer_iff r
  unfold ComparesNull
  rw [← identifierOfCast_iff l n hn, ← identifierOfCast_iff r n hn, ← hl, ← hr]
  cases isNullToPointer l <;> cases isNullToPointer r <;> simp

theorem asksNull_iff (e : Stmt) (n : Str) (hn : n ≠ []) :
    isEqNullCheck e = true ∧ identifierOf e = n ↔ AsksNull n e := by
  constructor
  · rintro ⟨h, hi⟩
    unfold isEqNullCheck at h
    split at h
    · rw [Bool.and_eq_true, decide_eq_true_eq] at h
      rw [h.1]
      exact .eq ((comparesNull_iff _ _ n hn).1 ⟨h.2, hi⟩)
    · split at h
      · next hop => subst hop; exact .lnot ((truthOf_iff _ n hn).1 ⟨h, hi⟩)
      · cases h
    · cases h
  · intro h
    cases h with
    | eq h =>
      obtain ⟨h1, h2⟩ := (comparesNull_iff _ _ n hn).2 h
      exact ⟨by simp only [isEqNullCheck, h1]; rfl, h2⟩
    | lnot h =>
      obtain ⟨h1, h2⟩ := (truthOf_iff _ n hn).2 h
      exact ⟨by simp [isEqNullCheck, h1], h2⟩

theorem asksNonNull_iff (e : Stmt) (n : Str) (hn : n ≠ []) :
    isNeNullCheck e = true ∧ identifierOf e = n ↔ AsksNonNull n e := by
  constructor
  · rintro ⟨h, hi⟩
    unfold isNeNullCheck at h
    split at h
    · rw [Bool.and_eq_true, decide_eq_true_eq] at h
      rw [h.1]
      exact .ne ((comparesNull_iff _ _ n hn).1 ⟨h.2, hi⟩)
    · have : ∃ k x, e = .cast .implicit k x := by
        unfold isImplicitDeclRef at h
        split at h
        · exact ⟨_, _, rfl⟩
        · cases h
      obtain ⟨k, x, rfl⟩ := this
      exact .truth ((truthOf_iff _ n hn).1 ⟨h, hi⟩)
  · intro h
    cases h with
    | ne h =>
      obtain ⟨h1, h2⟩ := (comparesNull_iff _ _ n hn).2 h
      exact ⟨by simp only [isNeNullCheck, h1]; rfl, h2⟩
    | truth h =>
      have hh := (truthOf_iff _ n hn).2 h
      cases h with
      | c _ => exact hh
      | cxx _ => exact hh

theorem hasArrowOn_iff (n : Str) (hn : n ≠ []) (e : Stmt) :
    hasArrowOn n e = true ↔ ∃ x, Below [e] x ∧ Arrow n x := by
  unfold hasArrowOn Arrow
  rw [List.any_eq_true]
  refine exists_congr fun x => and_congr (below_nodes e x).symm ?_
  cases x with
  | member a b m =>
    simp only [isArrowOn, Bool.and_eq_true, decide_eq_true_eq, eq_comm (a := n),
      identifierOfCast_iff b n hn]
    constructor
    · rintro ⟨rfl, h⟩; exact ⟨b, m, rfl, h⟩
    · rintro ⟨b, m, h, hr⟩; cases h; exact ⟨rfl, hr⟩
  | _ => simp [isArrowOn]

theorem hasMessageTo_iff (n : Str) (hn : n ≠ []) (e : Stmt) :
    hasMessageTo n e = true ↔ ∃ x, Below [e] x ∧ MessageTo n x := by
  unfold hasMessageTo MessageTo
  rw [List.any_eq_true]
  refine exists_congr fun x => and_congr (below_nodes e x).symm ?_
  cases x with
  | message c r sel args =>
    cases r with
    | none => simp [isMessageTo, hn]
    | some r =>
      simp only [isMessageTo, decide_eq_true_eq, eq_comm (a := n), identifierOfCast_iff r n hn]
      constructor
      · intro h; exact ⟨c, r, sel, args, rfl, h⟩
      · rintro ⟨c, r, sel, args, h, hr⟩; cases h; exact hr
  | _ => simp [isMessageTo]

/-! ## C52 -/

/-- `found n e`: the expression contains a use of `n` that needs it to be there. -/
abbrev UsedIn (use : Str → Stmt → Prop) (n : Str) (e : Stmt) : Prop := ∃ x, Below [e] x ∧ use n x

theorem broken_iff (has : Str → Stmt → Bool) (use : Str → Stmt → Prop)
    (hu : ∀ n e, n ≠ [] → (has n e = true ↔ UsedIn use n e)) (op : BinOp) (l r : Stmt) :
    nullCheckBroken has op l r = true ↔ ∃ n, n ≠ [] ∧ UsedIn use n r ∧
      ((op = .lor ∧ AsksNonNull n l) ∨ (op = .land ∧ AsksNull n l)) := by
  unfold nullCheckBroken
  constructor
  · intro h
    rw [Bool.and_eq_true] at h
    obtain ⟨h1, h2⟩ := h
    split at h2
    · cases h2
    · next hn =>
      refine ⟨_, hn, (hu _ _ hn).1 h2, ?_⟩
      simp only [Bool.or_eq_true, Bool.and_eq_true, decide_eq_true_eq] at h1
      exact h1.imp (fun h => ⟨h.1, (asksNonNull_iff _ _ hn).1 ⟨h.2, rfl⟩⟩)
        (fun h => ⟨h.1, (asksNull_iff _ _ hn).1 ⟨h.2, rfl⟩⟩)
  · rintro ⟨n, hn, hr, ⟨rfl, h⟩ | ⟨rfl, h⟩⟩
    · obtain ⟨h1, h2⟩ := (asksNonNull_iff _ _ hn).2 h
      rw [← h2] at hn hr
      simp [h1, hn, (hu _ _ hn).2 hr]
    · obtain ⟨h1, h2⟩ := (asksNull_iff _ _ hn).2 h
      rw [← h2] at hn hr
      simp [h1, hn, (hu _ _ hn).2 hr]

theorem misplaced_iff (has : Str → Stmt → Bool) (use : Str → Stmt → Prop)
    (hu : ∀ n e, n ≠ [] → (has n e = true ↔ UsedIn use n e)) (op : BinOp) (l r : Stmt) :
    nullCheckMisplaced has op l r = true ↔ ∃ n, n ≠ [] ∧ UsedIn use n l ∧
      ((op = .land ∧ AsksNonNull n r) ∨ (op = .lor ∧ AsksNull n r)) := by
  unfold nullCheckMisplaced
  constructor
  · intro h
    rw [Bool.and_eq_true] at h
    obtain ⟨h1, h2⟩ := h
    split at h2
    · cases h2
    · next hn =>
      refine ⟨_, hn, (hu _ _ hn).1 h2, ?_⟩
      simp only [Bool.or_eq_true, Bool.and_eq_true, decide_eq_true_eq] at h1
      exact h1.imp (fun h => ⟨h.1, (asksNonNull_iff _ _ hn).1 ⟨h.2, rfl⟩⟩)
        (fun h => ⟨h.1, (asksNull_iff _ _ hn).1 ⟨h.2, rfl⟩⟩)
  · rintro ⟨n, hn, hr, ⟨rfl, h⟩ | ⟨rfl, h⟩⟩
    · obtain ⟨h1, h2⟩ := (asksNonNull_iff _ _ hn).2 h
      rw [← h2] at hn hr
      simp [h1, hn, (hu _ _ hn).2 hr]
    · obtain ⟨h1, h2⟩ := (asksNull_iff _ _ hn).2 h
      rw [← h2] at hn hr
      simp [h1, hn, (hu _ _ hn).2 hr]

theorem mem_if_self {c : Bool} {r s : Stmt} : r ∈ (if c then [s] else []) ↔ r = s ∧ c = true := by
  cases c <;> simp

/-- The broken-null-check rule reports exactly `n || ...` and `!n && ...`, with whatever way of asking
whether the variable is null, when the right operand contains `n->m`. -/
theorem C52_broken (s r : Stmt) : r ∈ brokenNullVisit s ↔ r = s ∧ ∃ n a b, n ≠ [] ∧
    UsedIn Arrow n b ∧ ((s = .binary .lor a b ∧ AsksNonNull n a) ∨
      (s = .binary .land a b ∧ AsksNull n a)) := by
  cases s with
  | binary op a b =>
    rw [show brokenNullVisit (.binary op a b) =
      if nullCheckBroken hasArrowOn op a b then [.binary op a b] else [] from rfl, mem_if_self,
      broken_iff _ Arrow (fun n e hn => hasArrowOn_iff n hn e)]
    refine and_congr_right fun _ => exists_congr fun n => ?_
    constructor
    · rintro ⟨hn, hu, h⟩
      exact ⟨a, b, hn, hu, h.imp (fun h => ⟨by rw [h.1], h.2⟩) (fun h => ⟨by rw [h.1], h.2⟩)⟩
    · rintro ⟨a', b', hn, hu, ⟨h, ha⟩ | ⟨h, ha⟩⟩ <;> cases h
      · exact ⟨hn, hu, .inl ⟨rfl, ha⟩⟩
      · exact ⟨hn, hu, .inr ⟨rfl, ha⟩⟩
  | _ => simp [brokenNullVisit]

/-- The Objective-C rule does the same for messages. -/
theorem C52_broken_nil (s r : Stmt) : r ∈ brokenNilVisit s ↔ r = s ∧ ∃ n a b, n ≠ [] ∧
    UsedIn MessageTo n b ∧ ((s = .binary .lor a b ∧ AsksNonNull n a) ∨
      (s = .binary .land a b ∧ AsksNull n a)) := by
  cases s with
  | binary op a b =>
    rw [show brokenNilVisit (.binary op a b) =
      if nullCheckBroken hasMessageTo op a b then [.binary op a b] else [] from rfl, mem_if_self,
      broken_iff _ MessageTo (fun n e hn => hasMessageTo_iff n hn e)]
    refine and_congr_right fun _ => exists_congr fun n => ?_
    constructor
    · rintro ⟨hn, hu, h⟩
      exact ⟨a, b, hn, hu, h.imp (fun h => ⟨by rw [h.1], h.2⟩) (fun h => ⟨by rw [h.1], h.2⟩)⟩
    · rintro ⟨a', b', hn, hu, ⟨h, ha⟩ | ⟨h, ha⟩⟩ <;> cases h
      · exact ⟨hn, hu, .inl ⟨rfl, ha⟩⟩
      · exact ⟨hn, hu, .inr ⟨rfl, ha⟩⟩
  | _ => simp [brokenNilVisit]

/-- The misplaced-null-check rule reports exactly `... && n` and `... || !n`, with whatever way of
asking, when the left operand contains `n->m`. -/
theorem C52_misplaced (s r : Stmt) : r ∈ misplacedNullVisit s ↔ r = s ∧ ∃ n a b, n ≠ [] ∧
    UsedIn Arrow n a ∧ ((s = .binary .land a b ∧ AsksNonNull n b) ∨
      (s = .binary .lor a b ∧ AsksNull n b)) := by
  cases s with
  | binary op a b =>
    rw [show misplacedNullVisit (.binary op a b) =
      if nullCheckMisplaced hasArrowOn op a b then [.binary op a b] else [] from rfl, mem_if_self,
      misplaced_iff _ Arrow (fun n e hn => hasArrowOn_iff n hn e)]
    refine and_congr_right fun _ => exists_congr fun n => ?_
    constructor
    · rintro ⟨hn, hu, h⟩
      exact ⟨a, b, hn, hu, h.imp (fun h => ⟨by rw [h.1], h.2⟩) (fun h => ⟨by rw [h.1], h.2⟩)⟩
    · rintro ⟨a', b', hn, hu, ⟨h, ha⟩ | ⟨h, ha⟩⟩ <;> cases h
      · exact ⟨hn, hu, .inl ⟨rfl, ha⟩⟩
      · exact ⟨hn, hu, .inr ⟨rfl, ha⟩⟩
  | _ => simp [misplacedNullVisit]

/-- The Objective-C rule does the same for messages. -/
theorem C52_misplaced_nil (s r : Stmt) : r ∈ misplacedNilVisit s ↔ r = s ∧ ∃ n a b, n ≠ [] ∧
    UsedIn MessageTo n a ∧ ((s = .binary .land a b ∧ AsksNonNull n b) ∨
      (s = .binary .lor a b ∧ AsksNull n b)) := by
  cases s with
  | binary op a b =>
    rw [show misplacedNilVisit (.binary op a b) =
      if nullCheckMisplaced hasMessageTo op a b then [.binary op a b] else [] from rfl, mem_if_self,
      misplaced_iff _ MessageTo (fun n e hn => hasMessageTo_iff n hn e)]
    refine and_congr_right fun _ => exists_congr fun n => ?_
    constructor
    · rintro ⟨hn, hu, h⟩
      exact ⟨a, b, hn, hu, h.imp (fun h => ⟨by rw [h.1], h.2⟩) (fun h => ⟨by rw [h.1], h.2⟩)⟩
    · rintro ⟨a', b', hn, hu, ⟨h, ha⟩ | ⟨h, ha⟩⟩ <;> cases h
      · exact ⟨hn, hu, .inl ⟨rfl, ha⟩⟩
      · exact ⟨hn, hu, .inr ⟨rfl, ha⟩⟩
  | _ => simp [misplacedNilVisit]

/-- The redundant-nil-check rule reports exactly `n && ...` whose right operand contains a message to
`n` and is not a negation. -/
theorem C52_redundant_nil (s r : Stmt) : r ∈ redundantNilVisit s ↔ r = s ∧ ∃ n a b, n ≠ [] ∧
    s = .binary .land a b ∧ AsksNonNull n a ∧ (∀ e, b ≠ .unary .lnot e) ∧ UsedIn MessageTo n b := by
  cases s with
  | binary op a b =>
    rw [show redundantNilVisit (.binary op a b) =
      if isRedundantNilCheck op a b && (if identifierOf a = [] then false
        else hasMessageTo (identifierOf a) b) then [.binary op a b] else [] from rfl, mem_if_self]
    refine and_congr_right fun _ => ?_
    have hred : isRedundantNilCheck op a b = true ↔
        op = .land ∧ isNeNullCheck a = true ∧ ∀ e, b ≠ .unary .lnot e := by
      unfold isRedundantNilCheck
      split
      · next h =>
        simp only [Bool.and_eq_true, decide_eq_true_eq] at h
        simp only [h, true_and]
        cases b <;> simp
      · next h =>
        simp only [Bool.and_eq_true, decide_eq_true_eq] at h
        simp only [Bool.false_eq_true, false_iff]
        exact fun h' => h ⟨h'.1, h'.2.1⟩
    rw [Bool.and_eq_true, hred]
    constructor
    · rintro ⟨⟨rfl, h1, h2⟩, h3⟩
      split at h3
      · cases h3
      · next hn =>
        exact ⟨_, a, b, hn, rfl, (asksNonNull_iff _ _ hn).1 ⟨h1, rfl⟩, h2,
          (hasMessageTo_iff _ hn _).1 h3⟩
    · rintro ⟨n, a', b', hn, h, h1, h2, h3⟩
      cases h
      obtain ⟨h1', rfl⟩ := (asksNonNull_iff _ _ hn).2 h1
      refine ⟨⟨rfl, h1', h2⟩, ?_⟩
      rw [if_neg hn]
      exact (hasMessageTo_iff _ hn _).2 h3
  | _ => simp [redundantNilVisit]

/-- `p == NULL && p->x` is a broken check, `p->x && p` a misplaced one; `p && p->x` is neither. -/
example :
    let p : Stmt := .cast .implicit .lvalueToRvalue (.declRef ⟨1, ['p']⟩)
    let x : Stmt := .member true p ['x']
    let isNull : Stmt := .binary .eq p (.cast .implicit .nullToPointer (.intLit 0))
    let notNull : Stmt := .cast .implicit .pointerToBoolean p
    brokenNullVisit (.binary .land isNull x) = [.binary .land isNull x] ∧
    misplacedNullVisit (.binary .land x notNull) = [.binary .land x notNull] ∧
    brokenNullVisit (.binary .land notNull x) = [] ∧
    misplacedNullVisit (.binary .land notNull x) = [] := ⟨rfl, rfl, rfl, rfl⟩

theorem evaluates_trans {t : Stmt → Bool} {a b c : Stmt} (h : Evaluates t a b)
    (h' : Evaluates t b c) : Evaluates t a c := by
  induction h with
  | here => exact h'
  | operand hk _ ih => exact .operand hk (ih h')
  | andRight ht _ ih => exact .andRight ht (ih h')
  | orRight ht _ ih => exact .orRight ht (ih h')
  | condTrue ht _ ih => exact .condTrue ht (ih h')
  | condFalse ht _ ih => exact .condFalse ht (ih h')

/-- Full claim: a reported broken null check dereferences null whenever the variable is null.  Proved:
when the variable (identified by its name, as in the rule) is null, the right operand, which contains
an `n->m`, is evaluated, and with it everything that is evaluated whenever the operand is; so if no
further condition guards the `n->m`, it is evaluated.  Missing: a guarded `n->m`, see
`C52_guarded_witness`. -/
theorem C52_broken_dereferences_partial (s : Stmt) (hs : s ∈ brokenNullVisit s) :
    ∃ n a b op x, s = .binary op a b ∧ Below [b] x ∧ Arrow n x ∧
      ∀ t, NullNow t n → Evaluates t s b ∧ (Evaluates t b x → Evaluates t s x) := by
  obtain ⟨-, n, a, b, -, ⟨x, hb, hx⟩, ⟨rfl, h⟩ | ⟨rfl, h⟩⟩ := (C52_broken s s).1 hs
  · refine ⟨n, a, b, _, x, rfl, hb, hx, fun t ht => ?_⟩
    have he : Evaluates t (.binary .lor a b) b := .orRight (ht.2 _ h) .here
    exact ⟨he, evaluates_trans he⟩
  · refine ⟨n, a, b, _, x, rfl, hb, hx, fun t ht => ?_⟩
    have he : Evaluates t (.binary .land a b) b := .andRight (ht.1 _ h) .here
    exact ⟨he, evaluates_trans he⟩

/-- The left operand of a misplaced check, which contains an `n->m`, is evaluated in every state, so
also when the variable is null. -/
theorem C52_misplaced_dereferences_partial (s : Stmt) (hs : s ∈ misplacedNullVisit s) :
    ∃ n a b op x, s = .binary op a b ∧ Below [a] x ∧ Arrow n x ∧
      ∀ t, Evaluates t s a ∧ (Evaluates t a x → Evaluates t s x) := by
  obtain ⟨-, n, a, b, -, ⟨x, hb, hx⟩, ⟨rfl, h⟩ | ⟨rfl, h⟩⟩ := (C52_misplaced s s).1 hs
  · refine ⟨n, a, b, _, x, rfl, hb, hx, fun t => ?_⟩
    have he : Evaluates t (.binary .land a b) a :=
      .operand (k := a) (by simp [alwaysEvaluated]) .here
    exact ⟨he, evaluates_trans he⟩
  · refine ⟨n, a, b, _, x, rfl, hb, hx, fun t => ?_⟩
    have he : Evaluates t (.binary .lor a b) a :=
      .operand (k := a) (by simp [alwaysEvaluated]) .here
    exact ⟨he, evaluates_trans he⟩

/-- With the check in the right place and the right way round, nothing of the other operand is
evaluated when the variable is null. -/
theorem C52_proper_check (n : Str) (a b : Stmt) (t : Stmt → Bool) (ht : NullNow t n) :
    (AsksNonNull n a → ∀ x, Evaluates t (.binary .land a b) x →
      x = .binary .land a b ∨ Evaluates t a x) ∧
    (AsksNull n a → ∀ x, Evaluates t (.binary .lor a b) x →
      x = .binary .lor a b ∨ Evaluates t a x) := by
  constructor
  · intro h x hx
    cases hx with
    | here => exact .inl rfl
    | operand hk hx =>
      simp only [alwaysEvaluated, List.mem_singleton] at hk
      exact .inr (hk ▸ hx)
    | andRight h1 _ => rw [ht.2 _ h] at h1; cases h1
  · intro h x hx
    cases hx with
    | here => exact .inl rfl
    | operand hk hx =>
      simp only [alwaysEvaluated, List.mem_singleton] at hk
      exact .inr (hk ▸ hx)
    | orRight h1 _ => rw [ht.1 _ h] at h1; cases h1

theorem nullNow_isEqNullCheck (n : Str) (hn : n ≠ []) : NullNow isEqNullCheck n := by
  refine ⟨fun e h => ((asksNull_iff e n hn).2 h).1, fun e h => ?_⟩
  cases h with
  | ne _ => rfl
  | truth h => cases h <;> rfl

/-- The full claim is wrong: `p == NULL && (q && p->x)` is reported, but when both `p` and `q` are
null, nothing is dereferenced. -/
theorem C52_guarded_witness :
    let p : Stmt := .cast .implicit .lvalueToRvalue (.declRef ⟨1, ['p']⟩)
    let q : Stmt := .cast .implicit .lvalueToRvalue (.declRef ⟨2, ['q']⟩)
    let s : Stmt := .binary .land (.binary .eq p (.cast .implicit .nullToPointer (.intLit 0)))
      (.binary .land q (.member true p ['x']))
    s ∈ brokenNullVisit s ∧ ∃ t, NullNow t ['p'] ∧ NullNow t ['q'] ∧
      ∀ x, Evaluates t s x → ¬ ∃ n, Arrow n x := by
  refine ⟨List.mem_singleton.2 rfl, isEqNullCheck, nullNow_isEqNullCheck _ (by simp),
    nullNow_isEqNullCheck _ (by simp), fun x hx => ?_⟩
  have hlit : ∀ {x : Stmt}, (∀ k, k ∉ alwaysEvaluated x) → (∀ op l r, x ≠ .binary op l r) →
      (∀ a b c, x ≠ .condOp a b c) → (∀ a b, x ≠ .member true a b) →
      ∀ y, Evaluates isEqNullCheck x y → ¬ ∃ n, Arrow n y := by
    intro x h1 h2 h3 h4 y hy
    cases hy with
    | here => rintro ⟨n, b, m, h, -⟩; exact h4 _ _ h
    | operand hk _ => exact absurd hk (h1 _)
    | andRight _ _ => exact absurd rfl (h2 _ _ _)
    | orRight _ _ => exact absurd rfl (h2 _ _ _)
    | condTrue _ _ => exact absurd rfl (h3 _ _ _)
    | condFalse _ _ => exact absurd rfl (h3 _ _ _)
  have hcast : ∀ (k : CastKind) (e : Stmt), (∀ y, Evaluates isEqNullCheck e y → ¬ ∃ n, Arrow n y) →
      ∀ y, Evaluates isEqNullCheck (.cast .implicit k e) y → ¬ ∃ n, Arrow n y := by
    intro k e he y hy
    cases hy with
    | here => rintro ⟨n, b, m, h, -⟩; cases h
    | operand hk hy =>
      simp only [alwaysEvaluated, List.mem_singleton] at hk
      exact he y (hk ▸ hy)
  have hread : ∀ d k y, Evaluates isEqNullCheck (.cast .implicit k (.declRef d)) y →
      ¬ ∃ n, Arrow n y := by
    intro d k
    exact hcast _ _ (hlit (by simp [alwaysEvaluated]) (by simp) (by simp) (by simp))
  cases hx with
  | here => rintro ⟨n, b, m, h, -⟩; cases h
  | operand hk hx =>
    simp only [alwaysEvaluated, List.mem_singleton] at hk
    subst hk
    cases hx with
    | here => rintro ⟨n, b, m, h, -⟩; cases h
    | operand hk hx =>
      simp only [alwaysEvaluated, List.mem_cons, List.not_mem_nil, or_false] at hk
      rcases hk with rfl | rfl
      · exact hread _ _ _ hx
      · exact hcast _ _ (hlit (by simp [alwaysEvaluated]) (by simp) (by simp) (by simp)) _ hx
  | andRight _ hx =>
    cases hx with
    | here => rintro ⟨n, b, m, h, -⟩; cases h
    | operand hk hx =>
      simp only [alwaysEvaluated, List.mem_singleton] at hk
      subst hk
      exact hread _ _ _ hx
    | andRight h _ => cases h

/-- Variables are told apart by their names only: `a::p == NULL && b::p->x` is reported although the
two variables are different ones. -/
theorem C52_name_witness :
    let p : Stmt := .cast .implicit .lvalueToRvalue (.declRef ⟨1, ['p']⟩)
    let p' : Stmt := .cast .implicit .lvalueToRvalue (.declRef ⟨2, ['p']⟩)
    let s : Stmt := .binary .land (.binary .eq p (.cast .implicit .nullToPointer (.intLit 0)))
      (.member true p' ['x'])
    s ∈ brokenNullVisit s := List.mem_singleton.2 rfl

end Oclint
