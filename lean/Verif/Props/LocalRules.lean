import Verif.Model.RulesLocal
import Verif.Spec.LocalRules
import Verif.Spec.Thresholds
import Verif.Lemmas.Rules
import Verif.Lemmas.Loops

/-!
# C69-C72: useless parentheses, redundant local variables, early exits, reassigned parameters
-/

namespace Oclint
open Spec

/-! ## C69: useless parentheses -/

theorem mem_addParen (e : Option Stmt) (r : Stmt) :
    r ∈ addParenExprToViolation e ↔ ∃ x, r = .paren x ∧ e = some r := by
  unfold addParenExprToViolation
  split
  · next x =>
    rw [List.mem_singleton]
    constructor
    · rintro rfl; exact ⟨x, rfl, rfl⟩
    · rintro ⟨y, rfl, h⟩; exact (Option.some.inj h).symm
  · next h =>
    simp only [List.not_mem_nil, false_iff]
    rintro ⟨x, rfl, he⟩
    exact h x he

/-- Exactly the parenthesised conditions of `if`, returned values and initial values are
reported. -/
theorem C69_node (s r : Stmt) :
    r ∈ uselessParensVisit s ↔ StandsAlone s r ∧ ∃ x, r = .paren x := by
  unfold uselessParensVisit
  split
  · rw [mem_addParen]
    constructor
    · rintro ⟨x, rfl, h⟩; cases h; exact ⟨.condition _ _ _ _, x, rfl⟩
    · rintro ⟨h, x, rfl⟩; cases h; exact ⟨x, rfl, rfl⟩
  · rw [mem_addParen]
    constructor
    · rintro ⟨x, rfl, h⟩; cases h; exact ⟨.returned _, x, rfl⟩
    · rintro ⟨h, x, rfl⟩; cases h; exact ⟨x, rfl, rfl⟩
  · rw [mem_addParen]
    constructor
    · rintro ⟨x, rfl, h⟩; cases h; exact ⟨.initial _ _, x, rfl⟩
    · rintro ⟨h, x, rfl⟩; cases h; exact ⟨x, rfl, rfl⟩
  · next h1 h2 h3 =>
    simp only [List.not_mem_nil, false_iff]
    rintro ⟨h, -⟩
    cases h
    · exact h1 _ _ _ _ rfl
    · exact h2 _ rfl
    · exact h3 _ _ rfl

/-- The same over a tree, wherever the statement is. -/
theorem C69_exact (root r : Stmt) : r ∈ reportOver uselessParensVisit root ↔
    ∃ s x, Below [root] s ∧ StandsAlone s r ∧ r = .paren x := by
  simp only [reportOver_iff, C69_node]
  constructor
  · rintro ⟨s, h1, h2, x, h3⟩; exact ⟨s, x, h1, h2, h3⟩
  · rintro ⟨s, x, h1, h2, h3⟩; exact ⟨s, h1, h2, x, h3⟩

/-- No statement is reported for twice. -/
theorem C69_once (s : Stmt) : (uselessParensVisit s).length ≤ 1 := by
  unfold uselessParensVisit addParenExprToViolation
  repeat' split
  all_goals simp

/-- Dropping reported parentheses changes nothing, whatever the rest of the program does. -/
theorem C69_advice {σ V : Type} (W : World σ V) (s r x s' : Stmt) (hr : r ∈ uselessParensVisit s)
    (hx : r = .paren x) (h : AloneReplaced r x s s') : Same W s s' := by
  subst hx
  cases h with
  | condition p t e =>
    refine ⟨fun en => by simp [hasEntry], fun en a o b => ?_⟩
    by_cases he : en = .start
    · subst he; simp only [run_if_start, eval]
    · simp only [run_if_enter he]
  | returned =>
    refine ⟨fun en => by simp [hasEntry], fun en a o b => ?_⟩
    by_cases he : en = .start
    · subst he; simp only [run_return, eval]
    · constructor <;> intro h <;> (have := run_hasEntry h; cases en <;> simp [hasEntry] at this he)
  | initial d =>
    refine ⟨fun en => by simp [hasEntry], fun en a o b => ?_⟩
    constructor
    · intro h
      cases h with
      | varInit h => exact .varInit h
      | varThrow h => exact .varThrow h
      | expr h _ => simp [isExpr] at h
      | exprThrow h _ => simp [isExpr] at h
      | other h _ => simp [isOther] at h
    · intro h
      cases h with
      | varInit h => exact .varInit h
      | varThrow h => exact .varThrow h
      | expr h _ => simp [isExpr] at h
      | exprThrow h _ => simp [isExpr] at h
      | other h _ => simp [isOther] at h

/-- `int y = (x); if ((y)) return (1);`: everything is reported, in order. -/
example : reportOver uselessParensVisit (.compound [
      .declS [.varD ⟨1, ['y']⟩ (some (.paren (.declRef ⟨0, ['x']⟩)))],
      .ifS none (.paren (.declRef ⟨1, ['y']⟩)) (.returnS (some (.paren (.intLit 1)))) none]) =
    [.paren (.declRef ⟨0, ['x']⟩), .paren (.declRef ⟨1, ['y']⟩), .paren (.intLit 1)] := rfl

/-- Parentheses under a conversion, or elsewhere, are not. -/
example : reportOver uselessParensVisit (.compound [
      .ifS none (.cast .implicit .lvalueToRvalue (.paren (.declRef ⟨1, ['y']⟩))) .nullS none,
      .whileS (.paren (.boolLit true)) .breakS]) = [] := rfl

/-! ## C70: redundant local variables -/

theorem extractReturnDeclRef_iff (s : Stmt) (d : DeclId) : extractReturnDeclRef s = some d ↔
    ∃ k, s = .returnS (some (.cast .implicit k (.declRef d))) := by
  unfold extractReturnDeclRef
  split
  · next k d' =>
    constructor
    · intro h; cases h; exact ⟨k, rfl⟩
    · rintro ⟨k', h⟩; cases h; rfl
  · next h =>
    simp only [reduceCtorEq, false_iff]
    rintro ⟨k, rfl⟩
    exact h _ _ rfl

theorem extractNamedDecl_iff (s d : Stmt) (n : Str) : extractNamedDecl s = some (d, n) ↔
    s = .declS [d] ∧ Declares d n := by
  unfold extractNamedDecl
  split
  · constructor
    · intro h; cases h; exact ⟨rfl, .var _ _⟩
    · rintro ⟨h, h'⟩; cases h; cases h'; rfl
  · constructor
    · intro h; cases h; exact ⟨rfl, .other _⟩
    · rintro ⟨h, h'⟩; cases h; cases h'; rfl
  · next h1 h2 =>
    simp only [reduceCtorEq, false_iff]
    rintro ⟨rfl, h⟩
    cases h
    · exact h1 _ _ rfl
    · exact h2 _ rfl

theorem declares_unique {d : Stmt} {m n : Str} (h : Declares d m) (h' : Declares d n) : m = n := by
  generalize hx : d = x at h'
  cases h <;> cases h' <;> cases hx <;> rfl

/-- The last two of a list. -/
theorem reverse_two {α : Type} (l : List α) (a b : α) (r : List α) :
    l.reverse = a :: b :: r ↔ l = r.reverse ++ [b, a] := by
  constructor
  · intro h
    have := congrArg List.reverse h
    simpa using this
  · rintro rfl; simp

/-- A declaration is reported exactly if it is the only one in the next to last statement of a block
and the last statement returns the value of something with that name. -/
theorem C70_node (s r : Stmt) : r ∈ redundantLocalVisit s ↔
    ∃ pre k d, Declares r d.name ∧
      s = .compound (pre ++ [.declS [r], .returnS (some (.cast .implicit k (.declRef d)))]) := by
  unfold redundantLocalVisit
  split
  · next body =>
    split
    · next last lastSecond rest hb =>
      rw [reverse_two] at hb
      split
      · next ret decl name h1 h2 =>
        rw [extractReturnDeclRef_iff] at h1
        rw [extractNamedDecl_iff] at h2
        obtain ⟨k, rfl⟩ := h1
        obtain ⟨rfl, hd⟩ := h2
        constructor
        · intro h
          split at h
          · next hn =>
            rw [List.mem_singleton] at h
            subst h hn
            exact ⟨rest.reverse, k, ret, hd, by rw [hb]⟩
          · cases h
        · rintro ⟨pre, k', d, h3, h4⟩
          rw [hb] at h4
          simp only [Stmt.compound.injEq] at h4
          have h5 := List.append_inj_right' h4 rfl
          simp only [List.cons.injEq, Stmt.declS.injEq, Stmt.returnS.injEq, Option.some.injEq,
            Stmt.cast.injEq, Stmt.declRef.injEq, and_true, true_and] at h5
          obtain ⟨rfl, rfl, rfl⟩ := h5
          have : ret.name = name := declares_unique h3 hd
          rw [if_pos this]; exact List.mem_singleton.2 rfl
      · next h =>
        simp only [List.not_mem_nil, false_iff]
        rintro ⟨pre, k', d, h3, h4⟩
        rw [hb] at h4
        simp only [Stmt.compound.injEq] at h4
        have h5 := List.append_inj_right' h4 rfl
        simp only [List.cons.injEq, and_true] at h5
        exact h _ _ _ ((extractReturnDeclRef_iff _ _).2 ⟨k', h5.2⟩)
          ((extractNamedDecl_iff _ _ _).2 ⟨h5.1, h3⟩)
    · next h =>
      simp only [List.not_mem_nil, false_iff]
      rintro ⟨pre, k', d, h3, h4⟩
      cases h4
      exact h _ _ _ ((reverse_two _ _ _ pre.reverse).2 (by rw [List.reverse_reverse]))
  · next h =>
    simp only [List.not_mem_nil, false_iff]
    rintro ⟨pre, k', d, h3, rfl⟩
    exact h _ rfl

/-- The same over a tree. -/
theorem C70_exact (root r : Stmt) : r ∈ reportOver redundantLocalVisit root ↔
    ∃ pre k d, Declares r d.name ∧ Below [root]
      (.compound (pre ++ [.declS [r], .returnS (some (.cast .implicit k (.declRef d)))])) := by
  simp only [reportOver_iff, C70_node]
  constructor
  · rintro ⟨s, h1, pre, k, d, h2, rfl⟩; exact ⟨pre, k, d, h2, h1⟩
  · rintro ⟨pre, k, d, h2, h1⟩; exact ⟨_, h1, pre, k, d, h2, rfl⟩

/-- At most one report for a block. -/
theorem C70_once (s : Stmt) : (redundantLocalVisit s).length ≤ 1 := by
  unfold redundantLocalVisit
  repeat' split
  all_goals simp

theorem run_declare {σ V : Type} {W : World σ V} {d x s o s'} :
    Run W .start (.declS [.varD d (some x)]) s o s' ↔
      (∃ v s1, eval W x s = some (.val v s1) ∧ o = .normal ∧ s' = W.store d v s1) ∨
      (eval W x s = some (.thrown s') ∧ o = .thrown) := by
  constructor
  · intro h
    cases h with
    | expr h _ => simp [isExpr] at h
    | exprThrow h _ => simp [isExpr] at h
    | other h _ => simp [isOther] at h
    | decls h =>
      rw [runL_cons_start] at h
      rcases h with ⟨h, ho⟩ | ⟨s1, h, h2⟩
      · cases h with
        | expr h _ => simp [isExpr] at h
        | exprThrow h _ => simp [isExpr] at h
        | other h _ => simp [isOther] at h
        | varInit h => exact absurd rfl ho
        | varThrow h => exact .inr ⟨h, rfl⟩
      · obtain ⟨-, rfl, rfl⟩ := runL_nil.1 h2
        cases h with
        | expr h _ => simp [isExpr] at h
        | other h _ => simp [isOther] at h
        | varInit h => exact .inl ⟨_, _, h, rfl, rfl⟩
  · rintro (⟨v, s1, h, rfl, rfl⟩ | ⟨h, rfl⟩)
    · exact .decls (.go (hasEntry_start _) (.varInit h) .nil)
    · exact .decls (.exit (hasEntry_start _) (.varThrow h) (by simp))

/-- For a reported variable with an initial value: returning that value instead gives the same
result and leaves behind the same state, as far as `seen` does not depend on the variable. -/
theorem C70_advice {σ V τ : Type} (W : World σ V) (seen : σ → τ) (d : DeclId) (k : CastKind)
    (x : Stmt) (pre : List Stmt)
    (hread : ∀ v s, W.atom (.declRef d) (W.store d v s) = some (.val v (W.store d v s)))
    (hseen : ∀ v s, seen (W.store d v s) = seen s) (e : Entry V) (s : σ) (o : Out V) (t : τ) :
    (∃ s', RunL W e
      (pre ++ [.declS [.varD d (some x)], .returnS (some (.cast .implicit k (.declRef d)))]) s o s' ∧
        seen s' = t) ↔
    (∃ s', RunL W e (pre ++ [.returnS (some (.cast .implicit k x))]) s o s' ∧ seen s' = t) := by
  have key : ∀ e s, (∃ s', RunL W e
      [.declS [.varD d (some x)], .returnS (some (.cast .implicit k (.declRef d)))] s o s' ∧
        seen s' = t) ↔ (∃ s', RunL W e [.returnS (some (.cast .implicit k x))] s o s' ∧ seen s' = t) := by
    intro e s
    by_cases he : e = .start
    · subst he
      constructor
      · rintro ⟨s', h, ht⟩
        rw [runL_cons_start, run_declare] at h
        rcases h with ⟨⟨v, s1, h, rfl, -⟩ | ⟨h, rfl⟩, ho⟩ | ⟨s1, h, h2⟩
        · exact absurd rfl ho
        · refine ⟨s', .exit (hasEntry_start _) (.retThrow ?_) (by simp), ht⟩
          simp [eval, h, Res.andThen]
        · rw [run_declare] at h
          rcases h with ⟨v, s2, h, -, rfl⟩ | ⟨-, h⟩
          · rw [runL_cons_start] at h2
            rcases h2 with ⟨h2, ho⟩ | ⟨s3, h2, -⟩
            · rw [run_return] at h2
              rcases h2 with ⟨w, h2, rfl⟩ | ⟨h2, -⟩
              · simp only [eval, hread, Res.andThen, Option.some.injEq, Res.val.injEq] at h2
                obtain ⟨rfl, rfl⟩ := h2
                refine ⟨s2, .exit (hasEntry_start _) (.retVal ?_) (by simp), by rw [← ht, hseen]⟩
                simp [eval, h, Res.andThen]
              · simp [eval, hread, Res.andThen] at h2
            · rw [run_return] at h2
              rcases h2 with ⟨w, h2, h3⟩ | ⟨h2, h3⟩ <;> cases h3
          · cases h
      · rintro ⟨s', h, ht⟩
        rw [runL_cons_start] at h
        rcases h with ⟨h, ho⟩ | ⟨s3, h, -⟩
        · rw [run_return] at h
          cases hx : eval W x s with
          | none => simp [eval, hx, Res.andThen] at h
          | some r =>
            cases r with
            | thrown s1 =>
              simp only [eval, hx, Res.andThen] at h
              rcases h with ⟨w, h, rfl⟩ | ⟨h, rfl⟩
              · cases h
              · cases h
                refine ⟨_, .exit (hasEntry_start _) (run_declare.2 (.inr ⟨hx, rfl⟩)) (by simp), ht⟩
            | val v s1 =>
              simp only [eval, hx, Res.andThen] at h
              rcases h with ⟨w, h, rfl⟩ | ⟨h, rfl⟩
              · cases h
                refine ⟨W.store d v _, .go (hasEntry_start _)
                  (run_declare.2 (.inl ⟨v, _, hx, rfl, rfl⟩))
                  (.exit (hasEntry_start _) (.retVal ?_) (by simp)), by rw [hseen, ht]⟩
                simp [eval, hread, Res.andThen]
              · cases h
        · rw [run_return] at h
          rcases h with ⟨w, h2, h3⟩ | ⟨h2, h3⟩ <;> cases h3
    · constructor
      · rintro ⟨s', h, -⟩
        have := runL_hasEntry he h
        cases e <;> simp [hasEntryL, hasEntry] at this he
      · rintro ⟨s', h, -⟩
        have := runL_hasEntry he h
        cases e <;> simp [hasEntryL, hasEntry] at this he
  induction pre generalizing e s with
  | nil => exact key e s
  | cons y pre ih =>
    simp only [List.cons_append, runL_cons]
    split
    · constructor
      · rintro ⟨s', ⟨h1, h2⟩ | ⟨s1, h1, h2⟩, ht⟩
        · exact ⟨s', .inl ⟨h1, h2⟩, ht⟩
        · obtain ⟨s2, h3, h4⟩ := (ih .start s1).1 ⟨s', h2, ht⟩
          exact ⟨s2, .inr ⟨s1, h1, h3⟩, h4⟩
      · rintro ⟨s', ⟨h1, h2⟩ | ⟨s1, h1, h2⟩, ht⟩
        · exact ⟨s', .inl ⟨h1, h2⟩, ht⟩
        · obtain ⟨s2, h3, h4⟩ := (ih .start s1).2 ⟨s', h2, ht⟩
          exact ⟨s2, .inr ⟨s1, h1, h3⟩, h4⟩
    · exact ih e s

/-- `int b = a; return b;` -/
example : reportOver redundantLocalVisit (.compound [
      .declS [.varD ⟨1, ['b']⟩ (some (.declRef ⟨0, ['a']⟩))],
      .returnS (some (.cast .implicit .lvalueToRvalue (.declRef ⟨1, ['b']⟩)))]) =
    [.varD ⟨1, ['b']⟩ (some (.declRef ⟨0, ['a']⟩))] := rfl

/-- `int b = a; f(b); return b;` and `int b = a, c; return b;` are fine. -/
example : reportOver redundantLocalVisit (.compound [
      .declS [.varD ⟨1, ['b']⟩ none], .nullS,
      .returnS (some (.cast .implicit .lvalueToRvalue (.declRef ⟨1, ['b']⟩)))]) = [] ∧
    reportOver redundantLocalVisit (.compound [
      .declS [.varD ⟨1, ['b']⟩ none, .varD ⟨2, ['c']⟩ none],
      .returnS (some (.cast .implicit .lvalueToRvalue (.declRef ⟨1, ['b']⟩)))]) = [] := ⟨rfl, rfl⟩

/-! ## C71: early exits -/

theorem isFlowOfControlInterrupt_iff (s : Stmt) : isFlowOfControlInterrupt s = true ↔ Leaves s := by
  constructor
  · intro h
    cases s <;> simp only [isFlowOfControlInterrupt, Bool.false_eq_true] at h
    · exact .goto _
    · exact .indirect _
    · exact .brk
    · exact .cont
    · exact .ret _
  · intro h; cases h <;> rfl

theorem mem_addLong {range threshold} (hr : SoundRange range) (s : Option Stmt) (r : Stmt) :
    r ∈ addViolationIfStmtIsLongIf range threshold s ↔ s = some r ∧ LongIf range threshold r := by
  unfold addViolationIfStmtIsLongIf isLongIfWithoutElse
  split
  · next p c t els =>
    cases els with
    | some x =>
      simp only [Option.isSome_some, if_true, Bool.false_eq_true, if_false, List.not_mem_nil, false_iff]
      rintro ⟨h, p', c', t', h', -⟩
      cases h; cases h'
    | none =>
      have hl : getLineCount (range (.ifS p c t none)).1 (range (.ifS p c t none)).2 =
          ((range (.ifS p c t none)).2 : Int) - (range (.ifS p c t none)).1 + 1 := by
        have := hr (.ifS p c t none)
        unfold getLineCount toInt32
        omega
      simp only [Option.isSome_none, Bool.false_eq_true, if_false, hl, decide_eq_true_eq]
      split
      · next h =>
        simp only [Option.toList_some, List.mem_singleton]
        constructor
        · rintro rfl; exact ⟨rfl, p, c, t, rfl, h⟩
        · rintro ⟨h, -⟩; exact (Option.some.inj h).symm
      · next h =>
        simp only [List.not_mem_nil, false_iff]
        rintro ⟨h1, p', c', t', h2, h3⟩
        cases h1
        exact h h3
  · next h =>
    simp only [Bool.false_eq_true, if_false, List.not_mem_nil, false_iff]
    rintro ⟨rfl, p', c', t', rfl, -⟩
    exact h _ _ _ _ rfl

theorem getLastStatement_iff (b x : Stmt) : getLastStatement b = some x ↔
    (∃ pre, b = .compound (pre ++ [x])) ∨ (b = x ∧ ∀ l, x ≠ .compound l) := by
  unfold getLastStatement
  split
  · next body =>
    rw [List.getLast?_eq_some_iff]
    constructor
    · rintro ⟨pre, rfl⟩; exact .inl ⟨pre, rfl⟩
    · rintro (⟨pre, h⟩ | ⟨rfl, h⟩)
      · cases h; exact ⟨pre, rfl⟩
      · exact absurd rfl (h _)
  · next h =>
    constructor
    · intro h'; cases h'; exact .inr ⟨rfl, h⟩
    · rintro (⟨pre, h'⟩ | ⟨rfl, -⟩)
      · exact absurd h' (h _)
      · rfl

theorem mem_loopBody {range threshold} (hr : SoundRange range) (l b r : Stmt) (hl : LoopBody l b) :
    r ∈ visitLoopBody range threshold b ↔ BeforeExit l r ∧ LongIf range threshold r := by
  unfold visitLoopBody
  rw [mem_addLong hr, getLastStatement_iff]
  refine and_congr_left fun _ => ?_
  constructor
  · rintro (⟨pre, rfl⟩ | ⟨rfl, h⟩)
    · exact .loop hl rfl
    · exact .bare hl h
  · intro h
    cases h with
    | block => cases hl
    | loop h1 h2 =>
      refine .inl ⟨_, Eq.trans ?_ h2⟩
      cases hl <;> cases h1 <;> rfl
    | bare h1 h2 =>
      have : b = r := by cases hl <;> cases h1 <;> rfl
      exact .inr ⟨this, h2⟩

/-- Exactly the long `if`s without `else` that come right before a statement that leaves, or at the
end of the body of a C loop, are reported. -/
theorem C71_node (range : Stmt → Nat × Nat) (hr : SoundRange range) (threshold : Int) (s r : Stmt) :
    r ∈ earlyExitVisit range threshold s ↔ BeforeExit s r ∧ LongIf range threshold r := by
  unfold earlyExitVisit
  split
  · next body =>
    split
    · next last lastSecond rest hb =>
      rw [reverse_two] at hb
      have hB : BeforeExit (.compound body) r ↔ Leaves last ∧ lastSecond = r := by
        subst hb
        constructor
        · intro h
          generalize hc : Stmt.compound (rest.reverse ++ [lastSecond, last]) = c at h
          cases h with
          | block pre x last' hl =>
            simp only [Stmt.compound.injEq] at hc
            have := List.append_inj_right' hc rfl
            simp only [List.cons.injEq, and_true] at this
            obtain ⟨rfl, rfl⟩ := this
            exact ⟨hl, rfl⟩
          | loop h1 _ => subst hc; cases h1
          | bare h1 _ => subst hc; cases h1
        · rintro ⟨h, rfl⟩; exact .block _ _ _ h
      rw [hB]
      split
      · next h =>
        rw [mem_addLong hr, Option.some.injEq]
        simp only [(isFlowOfControlInterrupt_iff _).1 h, true_and]
      · next h =>
        simp only [List.not_mem_nil, false_iff]
        rintro ⟨⟨h', -⟩, -⟩
        exact h ((isFlowOfControlInterrupt_iff _).2 h')
    · next h =>
      simp only [List.not_mem_nil, false_iff]
      rintro ⟨h', -⟩
      generalize hc : Stmt.compound body = c at h'
      cases h' with
      | block pre x last' hl =>
        cases hc
        exact h _ _ _ ((reverse_two _ _ _ pre.reverse).2 (by rw [List.reverse_reverse]))
      | loop h1 _ => subst hc; cases h1
      | bare h1 _ => subst hc; cases h1
  · exact mem_loopBody hr _ _ _ (.forS _ _ _ _)
  · exact mem_loopBody hr _ _ _ (.whileS _ _)
  · exact mem_loopBody hr _ _ _ (.doS _ _)
  · next h1 h2 h3 h4 =>
    simp only [List.not_mem_nil, false_iff]
    rintro ⟨h, -⟩
    cases h with
    | block => exact h1 _ rfl
    | loop h _ => cases h <;> first | exact h2 _ _ _ _ rfl | exact h3 _ _ rfl | exact h4 _ _ rfl
    | bare h _ => cases h <;> first | exact h2 _ _ _ _ rfl | exact h3 _ _ rfl | exact h4 _ _ rfl

/-- The rule with its configured limit over a tree. -/
theorem C71_exact (cfg cfg' : Configurations) (range : Stmt → Nat × Nat) (hr : SoundRange range)
    (threshold : Int) (ht : cfg.intForKey "MAXIMUM_IF_LENGTH".toList 15 = .ok (threshold, cfg'))
    (root : Stmt) : ∃ rs, earlyExitRule cfg range root = .ok rs ∧ ∀ r, r ∈ rs ↔
      LongIf range threshold r ∧ ∃ s, Below [root] s ∧ BeforeExit s r := by
  refine ⟨_, by unfold earlyExitRule; rw [ht]; rfl, fun r => ?_⟩
  simp only [reportOver_iff, C71_node range hr]
  constructor
  · rintro ⟨s, h1, h2, h3⟩; exact ⟨h3, s, h1, h2⟩
  · rintro ⟨h3, s, h1, h2⟩; exact ⟨s, h1, h2, h3⟩

section advice
variable {σ V : Type} {W : World σ V}

theorem eval_lnot (c : Stmt) (s : σ) : eval W (.unary .lnot c) s =
    Res.andThen (eval W c s) fun v s => some (.val (W.ofBool (!W.truth v)) s) := rfl

theorem branch_lnot {c : Stmt} {s : σ} {T F : σ → Prop} {o : Out V} {s' : σ} :
    branch W (eval W (.unary .lnot c) s) T F o s' ↔ branch W (eval W c s) F T o s' := by
  rw [eval_lnot]
  cases eval W c s with
  | none => rfl
  | some r =>
    cases r with
    | thrown => rfl
    | val v s1 =>
      simp only [Res.andThen, branch, W.truth_ofBool]
      cases W.truth v <;> simp

theorem leaves_entry {last : Stmt} (h : Leaves last) (e : Entry V) (he : e ≠ .start) :
    hasEntry W e last = false := by
  cases h <;> cases e <;> simp_all [hasEntry]

/-- Inserting the exit: a block that ends with a reported `if` and a statement that leaves does the
same when it leaves early.  `last` must not end normally, which is only a condition for an
indirect `goto`. -/
theorem C71_block (W : World σ V) (pre : List Stmt) (p : Option Stmt) (c t last : Stmt)
    (hl : Leaves last) (hn : ∀ s s', ¬ Run W .start last s .normal s') :
    SameL W (pre ++ [.ifS p c t none, last]) (pre ++ (leaveEarly p c t last ++ [last])) := by
  apply sameL_append
  unfold leaveEarly
  refine ⟨fun e => ?_, fun e s o s' => ?_⟩
  · by_cases he : e = .start
    · subst he; simp [hasEntryL]
    · cases e <;> simp_all [hasEntryL, hasEntry, hasEntryO, leaves_entry hl]
  · by_cases he : e = .start
    · subst he
      have hlast : ∀ s o s', RunL W .start [last] s o s' ↔ Run W .start last s o s' := by
        intro s o s'
        rw [runL_cons_start]
        constructor
        · rintro (⟨h, -⟩ | ⟨s1, h, -⟩)
          · exact h
          · exact absurd h (hn _ _)
        · intro h
          exact .inl ⟨h, fun ho => hn _ _ (ho ▸ h)⟩
      simp only [List.cons_append, List.nil_append]
      rw [runL_cons_start, runL_cons_start]
      simp only [run_if_branch, branch_lnot]
      constructor
      · rintro (⟨⟨h1, h2⟩ | ⟨s1, h1, h2⟩, h3⟩ | ⟨s2, ⟨h1, h2⟩ | ⟨s1, h1, h2⟩, h3⟩)
        · exact .inl ⟨.inl ⟨h1, h2⟩, h2⟩
        · cases hc : eval W c s1 with
          | none => rw [hc] at h2; exact h2.elim
          | some r =>
            rw [hc] at h2
            cases r with
            | thrown s2 => exact .inl ⟨.inr ⟨s1, h1, by rw [hc]; exact h2⟩, h3⟩
            | val v s2 =>
              cases hv : W.truth v
              · simp only [branch, hv, Bool.false_eq_true, if_false, runO_none] at h2
                exact absurd h2.1 h3
              · simp only [branch, hv, if_true] at h2
                refine .inr ⟨s2, .inr ⟨s1, h1, ?_⟩, .exit (hasEntry_start _) h2 h3⟩
                rw [hc]; simp only [branch, hv, if_true, runO_none, true_and]
        · exact absurd rfl h2
        · cases hc : eval W c s1 with
          | none => rw [hc] at h2; exact h2.elim
          | some r =>
            rw [hc] at h2
            cases r with
            | thrown s3 => exact absurd h2.2 (by simp)
            | val v s3 =>
              cases hv : W.truth v
              · simp only [branch, hv, Bool.false_eq_true, if_false, runO_none, true_and] at h2
                subst h2
                rw [hlast] at h3
                refine .inl ⟨.inr ⟨s1, h1, ?_⟩, fun ho => hn _ _ (ho ▸ h3)⟩
                rw [hc]; simpa only [branch, hv, Bool.false_eq_true, if_false] using h3
              · simp only [branch, hv, if_true] at h2
                refine .inr ⟨s3, .inr ⟨s1, h1, ?_⟩, .go (hasEntry_start _) h2 h3⟩
                rw [hc]; simp only [branch, hv, if_true, runO_none, true_and]
      · rintro (⟨⟨h1, h2⟩ | ⟨s1, h1, h2⟩, h3⟩ | ⟨s2, ⟨h1, h2⟩ | ⟨s1, h1, h2⟩, h3⟩)
        · exact .inl ⟨.inl ⟨h1, h2⟩, h2⟩
        · cases hc : eval W c s1 with
          | none => rw [hc] at h2; exact h2.elim
          | some r =>
            rw [hc] at h2
            cases r with
            | thrown s2 => exact .inl ⟨.inr ⟨s1, h1, by rw [hc]; exact h2⟩, h3⟩
            | val v s2 =>
              cases hv : W.truth v
              · simp only [branch, hv, Bool.false_eq_true, if_false] at h2
                refine .inr ⟨s2, .inr ⟨s1, h1, ?_⟩, (hlast _ _ _).2 h2⟩
                rw [hc]; simp only [branch, hv, Bool.false_eq_true, if_false, runO_none, true_and]
              · simp only [branch, hv, if_true, runO_none] at h2
                exact absurd h2.1 h3
        · exact absurd rfl h2
        · cases hc : eval W c s1 with
          | none => rw [hc] at h2; exact h2.elim
          | some r =>
            rw [hc] at h2
            cases r with
            | thrown s3 => exact absurd h2.2 (by simp)
            | val v s3 =>
              cases hv : W.truth v
              · simp only [branch, hv, Bool.false_eq_true, if_false] at h2
                exact absurd h2 (hn _ _)
              · simp only [branch, hv, if_true, runO_none, true_and] at h2
                subst h2
                rw [runL_cons_start] at h3
                rcases h3 with ⟨h3, h4⟩ | ⟨s4, h3, h4⟩
                · exact .inl ⟨.inr ⟨s1, h1, by rw [hc]; simpa only [branch, hv, if_true] using h3⟩, h4⟩
                · exact .inr ⟨s4, .inr ⟨s1, h1, by rw [hc]; simpa only [branch, hv, if_true] using h3⟩, h4⟩
    · have hle := leaves_entry (W := W) hl e he
      have h1 : hasEntry W e (.ifS p c t none) = hasEntry W e t := by
        cases e <;> simp_all [hasEntry, hasEntryO]
      have h2 : hasEntry W e (.ifS p (.unary .lnot c) last none) = false := by
        cases e <;> simp_all [hasEntry, hasEntryO]
      simp only [List.cons_append, List.nil_append]
      rw [runL_cons (x := Stmt.ifS p c t none), h1,
        runL_cons (x := Stmt.ifS p (.unary .lnot c) last none), h2, if_neg Bool.false_ne_true,
        runL_cons (x := t)]
      split
      · next h =>
        simp only [run_if_enter he, h, true_and, Bool.true_eq_false, false_and, or_false]
      · rfl

/-- The condition of `C71_block` holds for everything that leaves but an indirect `goto`, whose
meaning the semantics leaves open. -/
theorem C71_leaves (W : World σ V) (last : Stmt) (hl : Leaves last) (hi : ∀ t, last ≠ .indirectGoto t)
    (s s' : σ) : ¬ Run W .start last s .normal s' := by
  intro h
  cases hl with
  | brk => cases h <;> rename_i h _ <;> simp [isExpr, isOther] at h
  | cont => cases h <;> rename_i h _ <;> simp [isExpr, isOther] at h
  | goto => cases h <;> rename_i h _ <;> simp [isExpr, isOther] at h
  | indirect => exact hi _ rfl
  | ret => cases h <;> rename_i h _ <;> simp [isExpr, isOther] at h

/-- In a loop body the exit is a `continue`. -/
theorem leaveEarly_sim (p : Option Stmt) (c t : Stmt) :
    LoopSimL W [.ifS p c t none] (leaveEarly p c t .continueS) ∧
      LoopSimL W (leaveEarly p c t .continueS) [.ifS p c t none] := by
  have hent : ∀ e, hasEntryL W e [.ifS p c t none] = hasEntryL W e (leaveEarly p c t .continueS) := by
    intro e
    cases e <;> simp [leaveEarly, hasEntryL, hasEntry, hasEntryO]
  have hone : ∀ (x : Stmt) s o s', RunL W .start [x] s o s' ↔ Run W .start x s o s' := by
    intro x s o s'
    rw [runL_cons_start]
    constructor
    · rintro (⟨h, -⟩ | ⟨s1, h, h2⟩)
      · exact h
      · obtain ⟨-, rfl, rfl⟩ := runL_nil.1 h2; exact h
    · intro h
      by_cases ho : o = .normal
      · subst ho; exact .inr ⟨_, h, .nil⟩
      · exact .inl ⟨h, ho⟩
  have hcont : ∀ s o s', Run W .start .continueS s o s' ↔ o = .cont ∧ s' = s := by
    intro s o s'
    constructor
    · intro h
      cases h with
      | cont => exact ⟨rfl, rfl⟩
      | expr h _ => simp [isExpr] at h
      | exprThrow h _ => simp [isExpr] at h
      | other h _ => simp [isOther] at h
    · rintro ⟨rfl, rfl⟩; exact .cont
  have hlater : ∀ e, e ≠ .start → ∀ s o s', RunL W e [.ifS p c t none] s o s' ↔
      RunL W e (leaveEarly p c t .continueS) s o s' := by
    intro e he s o s'
    have h1 : hasEntry W e (.ifS p c t none) = hasEntry W e t := by
      cases e <;> simp_all [hasEntry, hasEntryO]
    have h2 : hasEntry W e (.ifS p (.unary .lnot c) .continueS none) = false := by
      cases e <;> simp_all [hasEntry, hasEntryO]
    unfold leaveEarly
    rw [runL_cons (x := Stmt.ifS p c t none), h1,
      runL_cons (x := Stmt.ifS p (.unary .lnot c) .continueS none), h2, if_neg Bool.false_ne_true,
      runL_cons (x := t)]
    split
    · next h => simp only [run_if_enter he, h, true_and, Bool.true_eq_false, false_and, or_false]
    · rfl
  refine ⟨⟨hent, fun e s o s' hr => ?_⟩, ⟨fun e => (hent e).symm, fun e s o s' hr => ?_⟩⟩
  · by_cases he : e = .start
    · subst he
      rw [hone, run_if_branch] at hr
      rcases hr with ⟨h1, h2⟩ | ⟨s1, h1, h2⟩
      · exact ⟨o, rfl, .exit (hasEntry_start _) (.ifInit h1 h2) h2⟩
      · cases hc : eval W c s1 with
        | none => rw [hc] at h2; exact h2.elim
        | some r =>
          rw [hc] at h2
          cases r with
          | thrown s2 =>
            obtain ⟨rfl, rfl⟩ := h2
            refine ⟨.thrown, rfl, .exit (hasEntry_start _) ?_ (by simp)⟩
            rw [run_if_branch]
            exact .inr ⟨s1, h1, by rw [branch_lnot, hc]; exact ⟨rfl, rfl⟩⟩
          | val v s2 =>
            cases hv : W.truth v
            · simp only [branch, hv, Bool.false_eq_true, if_false, runO_none] at h2
              obtain ⟨rfl, rfl⟩ := h2
              refine ⟨.cont, rfl, .exit (hasEntry_start _) ?_ (by simp)⟩
              rw [run_if_branch]
              refine .inr ⟨s1, h1, ?_⟩
              rw [branch_lnot, hc]
              simp only [branch, hv, Bool.false_eq_true, if_false]
              exact .cont
            · simp only [branch, hv, if_true] at h2
              refine ⟨o, rfl, .go (hasEntry_start _) (s1 := s2) ?_ ((hone _ _ _ _).2 h2)⟩
              rw [run_if_branch]
              refine .inr ⟨s1, h1, ?_⟩
              rw [branch_lnot, hc]
              simp only [branch, hv, if_true]
              exact .none
    · exact ⟨o, rfl, (hlater e he _ _ _).1 hr⟩
  · by_cases he : e = .start
    · subst he
      have key : ∀ o', (Run W .start (.ifS p c t none) s o' s') →
          RunL W .start [.ifS p c t none] s o' s' := fun o' h => (hone _ _ _ _).2 h
      unfold leaveEarly at hr
      rw [runL_cons_start] at hr
      simp only [hone] at hr
      rcases hr with ⟨h, ho⟩ | ⟨s2, h, h3⟩
      · rw [run_if_branch] at h
        rcases h with ⟨h1, h2⟩ | ⟨s1, h1, h2⟩
        · exact ⟨o, rfl, key _ (.ifInit h1 h2)⟩
        · rw [branch_lnot] at h2
          cases hc : eval W c s1 with
          | none => rw [hc] at h2; exact h2.elim
          | some r =>
            rw [hc] at h2
            cases r with
            | thrown s2 =>
              obtain ⟨rfl, rfl⟩ := h2
              exact ⟨.thrown, rfl, key _ (.ifThrow h1 hc)⟩
            | val v s2 =>
              cases hv : W.truth v
              · simp only [branch, hv, Bool.false_eq_true, if_false, hcont] at h2
                obtain ⟨rfl, rfl⟩ := h2
                exact ⟨.normal, rfl, key _ (.ifFalse h1 hc hv .none)⟩
              · simp only [branch, hv, if_true, runO_none] at h2
                exact absurd h2.1 ho
      · rw [run_if_branch] at h
        rcases h with ⟨h1, h2⟩ | ⟨s1, h1, h2⟩
        · exact absurd rfl h2
        · rw [branch_lnot] at h2
          cases hc : eval W c s1 with
          | none => rw [hc] at h2; exact h2.elim
          | some r =>
            rw [hc] at h2
            cases r with
            | thrown s2 => exact absurd h2.2 (by simp)
            | val v s4 =>
              cases hv : W.truth v
              · simp only [branch, hv, Bool.false_eq_true, if_false, hcont] at h2
                exact absurd h2.1 (by simp)
              · simp only [branch, hv, if_true, runO_none, true_and] at h2
                subst h2
                exact ⟨o, rfl, key _ (.ifTrue h1 hc hv h3)⟩
    · exact ⟨o, rfl, (hlater e he _ _ _).2 hr⟩

theorem loopSame {b b' l l' : Stmt} (h : LoopSim W b b') (h' : LoopSim W b' b)
    (hl : BodyReplaced b b' l l') : Same W l l' := by
  cases hl
  · exact for_loopSame h h' _ _ _
  · exact while_loopSame h h' _
  · exact do_loopSame h h' _

/-- A loop whose body ends with a reported `if` does the same when it continues early. -/
theorem C71_loop (W : World σ V) (pre : List Stmt) (p : Option Stmt) (c t l l' : Stmt)
    (hl : BodyReplaced (.compound (pre ++ [.ifS p c t none]))
      (.compound (pre ++ leaveEarly p c t .continueS)) l l') : Same W l l' :=
  loopSame (loopSim_compound (loopSimL_append (leaveEarly_sim p c t).1))
    (loopSim_compound (loopSimL_append (leaveEarly_sim p c t).2)) hl

/-- Likewise if the `if` is all of the body. -/
theorem C71_bare (W : World σ V) (p : Option Stmt) (c t l l' : Stmt)
    (hl : BodyReplaced (.ifS p c t none) (.compound (leaveEarly p c t .continueS)) l l') :
    Same W l l' := by
  have hb : Same W (.ifS p c t none) (.compound [.ifS p c t none]) := by
    refine ⟨fun e => ?_, fun e s o s' => ?_⟩
    · cases e <;> simp [hasEntry, hasEntryL]
    · rw [run_compound, runL_cons]
      constructor
      · intro h
        rw [if_pos (run_hasEntry h)]
        by_cases ho : o = .normal
        · subst ho; exact .inr ⟨_, h, .nil⟩
        · exact .inl ⟨h, ho⟩
      · split
        · rintro (⟨h, -⟩ | ⟨s1, h, h2⟩)
          · exact h
          · obtain ⟨-, rfl, rfl⟩ := runL_nil.1 h2; exact h
        · next hn =>
          intro h
          obtain ⟨rfl, -, -⟩ := runL_nil.1 h
          exact absurd (hasEntry_start _) hn
  have h1 := loopSim_compound (leaveEarly_sim (W := W) p c t).1
  have h2 := loopSim_compound (leaveEarly_sim (W := W) p c t).2
  refine loopSame ⟨fun e => (hb.1 e).trans (h1.1 e), fun e s o s' h => ?_⟩
    ⟨fun e => (h2.1 e).trans (hb.1 e).symm, fun e s o s' h => ?_⟩ hl
  · exact h1.2 _ _ _ _ ((hb.2 _ _ _ _).1 h)
  · obtain ⟨o', ho, h⟩ := h2.2 _ _ _ _ h
    exact ⟨o', ho, (hb.2 _ _ _ _).2 h⟩

end advice

/-- An `if` of 16 lines at the end of a loop is reported, one of 15 lines is not; in a range based
loop neither is. -/
example : earlyExitVisit (fun _ => (1, 16)) 15 (.whileS (.boolLit true)
      (.compound [.nullS, .ifS none (.boolLit true) .nullS none])) =
      [.ifS none (.boolLit true) .nullS none] ∧
    earlyExitVisit (fun _ => (1, 15)) 15 (.whileS (.boolLit true)
      (.compound [.nullS, .ifS none (.boolLit true) .nullS none])) = [] ∧
    earlyExitVisit (fun _ => (1, 16)) 15 (.forRange .nullS .nullS
      (.compound [.nullS, .ifS none (.boolLit true) .nullS none])) = [] := ⟨rfl, rfl, rfl⟩

/-- The advice for `if (x) x = 0; return x;`. -/
example : SameL machine
    [.ifS none (.declRef ⟨0, ['x']⟩) (.binary .assign (.declRef ⟨0, ['x']⟩) (.intLit 0)) none,
      .returnS (some (.declRef ⟨0, ['x']⟩))]
    [.ifS none (.unary .lnot (.declRef ⟨0, ['x']⟩)) (.returnS (some (.declRef ⟨0, ['x']⟩))) none,
      .binary .assign (.declRef ⟨0, ['x']⟩) (.intLit 0), .returnS (some (.declRef ⟨0, ['x']⟩))] :=
  C71_block machine [] none _ _ _ (.ret _) (C71_leaves machine _ (.ret _) (by simp))

/-- One before a `return` is reported as well. -/
example : earlyExitVisit (fun _ => (3, 20)) 15 (.compound [
      .ifS none (.boolLit true) .nullS none, .returnS none]) =
    [.ifS none (.boolLit true) .nullS none] := rfl

/-! ## C72: reassigned parameters -/

theorem assignsNamed_iff (names : List Str) (s : Stmt) : assignsNamed names s = true ↔
    ∃ d, d.name ∈ names ∧ PlainAssignment d s := by
  unfold assignsNamed
  split
  · next op d r =>
    simp only [Bool.and_eq_true, decide_eq_true_eq, List.any_eq_true, beq_iff_eq]
    constructor
    · rintro ⟨rfl, n, hn, h⟩; exact ⟨d, h ▸ hn, r, rfl⟩
    · rintro ⟨d', hn, r', h⟩; cases h; exact ⟨rfl, _, hn, rfl⟩
  · next h =>
    simp only [Bool.false_eq_true, false_iff]
    rintro ⟨d, -, r, rfl⟩
    exact h _ _ _ rfl

theorem parameterReassignment_eq (f : ParamScope) : parameterReassignment f =
    (f.roots.flatMap Stmt.nodes).filter
      (assignsNamed ((f.params.map (·.name)).filter fun name => name ≠ [])) := by
  unfold parameterReassignment locateParamNames analyzeAssignments
  split
  · rfl
  · next h =>
    simp only [Bool.not_eq_true, Bool.not_eq_false', List.isEmpty_iff] at h
    rw [h, eq_comm, List.filter_eq_nil_iff]
    intro s _
    rw [assignsNamed_iff]
    rintro ⟨d, hd, -⟩
    cases hd

theorem below_flatMap (roots : List Stmt) (s : Stmt) :
    Below roots s ↔ s ∈ roots.flatMap Stmt.nodes := by
  rw [List.mem_flatMap]
  constructor
  · intro h
    induction h with
    | root h => exact ⟨_, h, Stmt.self_mem_nodes _⟩
    | child _ hk ih =>
      obtain ⟨r, hr, hp⟩ := ih
      exact ⟨r, hr, (below_nodes _ _).1 (.child ((below_nodes _ _).2 hp) hk)⟩
  · rintro ⟨r, hr, hs⟩
    have h := (below_nodes _ _).2 hs
    clear hs
    generalize hl : [r] = l at h
    induction h with
    | root h => subst hl; rw [List.mem_singleton] at h; exact .root (h ▸ hr)
    | child _ hk ih => exact .child ih hk

/-- Exactly the plain assignments to something that has the name of a parameter are reported. -/
theorem C72_by_name (f : ParamScope) (s : Stmt) : s ∈ parameterReassignment f ↔
    Below f.roots s ∧ ∃ d, PlainAssignment d s ∧ d.name ≠ [] ∧ ∃ q ∈ f.params, q.name = d.name := by
  rw [parameterReassignment_eq, List.mem_filter, below_flatMap, assignsNamed_iff]
  refine and_congr_right fun _ => exists_congr fun d => ?_
  simp only [List.mem_filter, List.mem_map, decide_eq_true_eq]
  constructor
  · rintro ⟨⟨⟨q, hq, h1⟩, h2⟩, h3⟩; exact ⟨h3, h2, q, hq, h1⟩
  · rintro ⟨h3, h2, q, hq, h1⟩; exact ⟨⟨⟨q, hq, h1⟩, h2⟩, h3⟩

open Classical in
/-- There are as many reports as such assignments. -/
theorem C72_count (f : ParamScope) : Tally (fun s => if ∃ d, PlainAssignment d s ∧ d.name ≠ [] ∧
      ∃ q ∈ f.params, q.name = d.name then 1 else 0) Stmt.kids f.roots
    (parameterReassignment f).length := by
  rw [parameterReassignment_eq]
  have hp : ∀ s, assignsNamed ((f.params.map (·.name)).filter fun name => name ≠ []) s = true ↔
      ∃ d, PlainAssignment d s ∧ d.name ≠ [] ∧ ∃ q ∈ f.params, q.name = d.name := by
    intro s
    rw [assignsNamed_iff]
    refine exists_congr fun d => ?_
    simp only [List.mem_filter, List.mem_map, decide_eq_true_eq]
    constructor
    · rintro ⟨⟨⟨q, hq, h1⟩, h2⟩, h3⟩; exact ⟨h3, h2, q, hq, h1⟩
    · rintro ⟨h3, h2, q, hq, h1⟩; exact ⟨⟨⟨q, hq, h1⟩, h2⟩, h3⟩
  generalize f.roots = roots
  induction roots with
  | nil => exact .nil
  | cons r roots ih =>
    rw [List.flatMap_cons, List.filter_append, List.length_append]
    exact tally_cons.2 ⟨_, _, tally_filter _ _ hp r, ih, rfl⟩

/-- If everything assigned to that has the name of a parameter is that parameter, the reports are
exactly the plain assignments to named parameters. -/
theorem C72_no_shadowing_partial (f : ParamScope)
    (hs : ∀ d s q, Below f.roots s → PlainAssignment d s → q ∈ f.params → q.name = d.name → q = d)
    (s : Stmt) : s ∈ parameterReassignment f ↔
      Below f.roots s ∧ ∃ d ∈ f.params, d.name ≠ [] ∧ PlainAssignment d s := by
  rw [C72_by_name]
  refine and_congr_right fun hb => ⟨?_, ?_⟩
  · rintro ⟨d, h1, h2, q, hq, hn⟩
    exact ⟨d, hs d s q hb h1 hq hn ▸ hq, h2, h1⟩
  · rintro ⟨d, hd, h2, h1⟩
    exact ⟨d, h1, h2, d, hd, rfl⟩

/-- Nothing but plain assignments is reported: no `+=`, no `++`, no assignment through
parentheses. -/
theorem C72_only_plain (f : ParamScope) (s : Stmt) (h : s ∈ parameterReassignment f) :
    ∃ d r, s = .binary .assign (.declRef d) r := by
  obtain ⟨-, d, ⟨r, rfl⟩, -⟩ := (C72_by_name f s).1 h
  exact ⟨d, r, rfl⟩

/-- `void f(int a) { { int a; a = 1; } }`: the assignment is to the inner `a` but reported, so
without the condition of `C72_no_shadowing_partial` its conclusion is false. -/
theorem C72_shadowing : ∃ (f : ParamScope) (s : Stmt), s ∈ parameterReassignment f ∧
    ¬ ∃ d ∈ f.params, PlainAssignment d s := by
  refine ⟨⟨[⟨0, ['a']⟩], [.compound [.compound [.declS [.varD ⟨1, ['a']⟩ none],
    .binary .assign (.declRef ⟨1, ['a']⟩) (.intLit 1)]]]⟩,
    .binary .assign (.declRef ⟨1, ['a']⟩) (.intLit 1), List.mem_singleton.2 rfl, ?_⟩
  rintro ⟨d, hd, r, h⟩
  rw [List.mem_singleton.1 hd] at h
  simp at h

/-- `void f(int a, int b) { a = 1; b += 2; a++; }` -/
example : parameterReassignment ⟨[⟨0, ['a']⟩, ⟨1, ['b']⟩], [.compound [
      .binary .assign (.declRef ⟨0, ['a']⟩) (.intLit 1),
      .binary (.compoundAssign 0) (.declRef ⟨1, ['b']⟩) (.intLit 2),
      .unary .postInc (.declRef ⟨0, ['a']⟩)]]⟩ =
    [.binary .assign (.declRef ⟨0, ['a']⟩) (.intLit 1)] := rfl

end Oclint
