import Verif.Model.RulesControl
import Verif.Lemmas.Semantics
import Mathlib.Data.Nat.Find
import Mathlib.Tactic.ByContra

/-! # Dead code: C39 and C40 -/

namespace Oclint

open Spec

set_option linter.unusedSimpArgs false

namespace Spec

/-- Statements that by their form never run to their end: jumps, and blocks and two-way `if`s made
of them. -/
inductive AlwaysExits : Stmt → Prop where
  | brk : AlwaysExits .breakS
  | cont : AlwaysExits .continueS
  | ret (v) : AlwaysExits (.returnS v)
  | goto (l) : AlwaysExits (.gotoS l)
  | throwE (v) : AlwaysExits (.throwE v)
  | atThrow (v) : AlwaysExits (.atThrow v)
  | caseS {v s} : AlwaysExits s → AlwaysExits (.caseS v s)
  | defaultS {s} : AlwaysExits s → AlwaysExits (.defaultS s)
  | compound {b s} : s ∈ b → AlwaysExits s → AlwaysExits (.compound b)
  | ifS {p c t e} : AlwaysExits t → AlwaysExits e → AlwaysExits (.ifS p c t (some e))

/-- LabelStmt statements. -/
inductive LabelStmt : Stmt → Prop where
  | caseS (v s) : LabelStmt (.caseS v s)
  | defaultS (s) : LabelStmt (.defaultS s)
  | labelS (n s) : LabelStmt (.labelS n s)

/-- Two neighbours that make the second one dead. -/
def DeadPair (e x : Stmt) : Prop := AlwaysExits e ∧ ¬ LabelStmt x

/-- There are two such neighbours. -/
def HasDeadPair (l : List Stmt) : Prop := ∃ A e x B, l = A ++ e :: x :: B ∧ DeadPair e x

/-- No label in the statement but the `case` and `default` labels it begins with. -/
def FrontLabels {σ V : Type} (W : World σ V) : Stmt → Prop
  | .caseS _ s => FrontLabels W s
  | .defaultS s => FrontLabels W s
  | s => NoEntry W s

end Spec

theorem isAnyLabel_iff (s : Stmt) : isAnyLabel s = true ↔ LabelStmt s := by
  constructor
  · intro h; cases s <;> simp [isAnyLabel] at h <;> constructor
  · intro h; cases h <;> rfl

theorem joinExit_noExit (a b : ExitType) : joinExit a b = .noExit ↔ a = .noExit ∨ b = .noExit := by
  cases a <;> cases b <;> decide

theorem exitType_iff (s : Stmt) : exitType s ≠ .noExit ↔ AlwaysExits s := by
  induction s using Stmt.rec (motive_2 := fun l => exitTypeL l ≠ .noExit ↔ ∃ x ∈ l, AlwaysExits x)
    (motive_3 := fun o => ∀ x, o = some x → (exitType x ≠ .noExit ↔ AlwaysExits x)) with
  | compound b ih =>
    simp only [exitType, ih]
    constructor
    · rintro ⟨x, h1, h2⟩; exact .compound h1 h2
    · intro h; cases h with | compound h1 h2 => exact ⟨_, h1, h2⟩
  | ifS p c t e _ _ iht ihe =>
    cases e with
    | none => simp only [exitType, ne_eq, not_true_eq_false, false_iff]; intro h; cases h
    | some e =>
      have ihe := ihe e rfl
      have : exitType (.ifS p c t (some e)) ≠ .noExit ↔ exitType t ≠ .noExit ∧ exitType e ≠ .noExit := by
        simp [exitType, joinExit_noExit, not_or]
      rw [this, iht, ihe]
      constructor
      · rintro ⟨h1, h2⟩; exact .ifS h1 h2
      · intro h; cases h with | ifS h1 h2 => exact ⟨h1, h2⟩
  | caseS v s _ ih =>
    simp only [exitType, ih]
    exact ⟨.caseS, fun h => by cases h with | caseS h => exact h⟩
  | defaultS s ih =>
    simp only [exitType, ih]
    exact ⟨.defaultS, fun h => by cases h with | defaultS h => exact h⟩
  | breakS => simp [exitType, AlwaysExits.brk]
  | continueS => simp [exitType, AlwaysExits.cont]
  | returnS v => simp [exitType, AlwaysExits.ret]
  | gotoS v => simp [exitType, AlwaysExits.goto]
  | throwE v => simp [exitType, AlwaysExits.throwE]
  | atThrow v => simp [exitType, AlwaysExits.atThrow]
  | nil => simp [exitTypeL]
  | cons s l ih1 ih2 =>
    simp only [exitTypeL, List.mem_cons, exists_eq_or_imp, ← ih1, ← ih2]
    by_cases h : exitType s = .noExit <;> simp [h]
  | none => rename_i h; cases h
  | some x ih => rename_i h; cases h; exact ih
  | _ => simp only [exitType, ne_eq, not_true_eq_false, false_iff]; intro h; cases h

/-- What the rule takes for an exit is what leaves the block by its form. -/
theorem C40_exit_iff (s : Stmt) : isAnyReturn s = true ↔ AlwaysExits s := by
  simp [isAnyReturn, ← exitType_iff]

/-- `deadCodeLoop` on any list. -/
theorem deadCodeLoop_mem (hb : Bool) (l : List Stmt) (x : Stmt) : x ∈ deadCodeLoop hb l ↔
    (∃ B, hb = true ∧ ¬ LabelStmt x ∧ l = x :: B) ∨
    ((∀ y B, l = y :: B → hb = true → LabelStmt y) ∧
      ∃ A e B, l = A ++ e :: x :: B ∧ DeadPair e x ∧ ¬ HasDeadPair (A ++ [e])) := by
  induction l generalizing hb with
  | nil => simp [deadCodeLoop]
  | cons s rest ih =>
    by_cases h1 : hb = true ∧ ¬ LabelStmt s
    · have h2 : isAnyLabel s = false := by simpa [← isAnyLabel_iff] using h1.2
      simp only [deadCodeLoop, h1.1, h2, Bool.not_false, Bool.and_self, if_true, List.mem_singleton]
      constructor
      · rintro rfl; exact .inl ⟨rest, trivial, h1.2, rfl⟩
      · rintro (⟨B, _, _, h⟩ | ⟨h, _⟩)
        · cases h; rfl
        · exact absurd (h s rest rfl trivial) h1.2
    · have h2 : (hb && !isAnyLabel s) = false := by
        by_cases hs : LabelStmt s
        · simp [(isAnyLabel_iff s).mpr hs]
        · have : hb = false := by simpa [hs] using h1
          simp [this]
      simp only [deadCodeLoop, h2, Bool.false_eq_true, if_false, ih, C40_exit_iff]
      have hlab : hb = true → LabelStmt s := fun h => by
        by_contra hs; exact h1 ⟨h, hs⟩
      constructor
      · rintro (⟨B, he, hx, rfl⟩ | ⟨h3, A, e, B, rfl, hp, hn⟩)
        · refine .inr ⟨fun y B' hy hb => by cases hy; exact hlab hb, [], s, B, rfl, ⟨he, hx⟩, ?_⟩
          rintro ⟨A', e', x', B', h, _⟩
          have := congrArg List.length h; simp at this; omega
        · refine .inr ⟨fun y B' hy hb => by cases hy; exact hlab hb, s :: A, e, B, rfl, hp, ?_⟩
          rintro ⟨A', e', x', B', h, hp'⟩
          cases A' with
          | nil =>
            simp only [List.nil_append, List.cons_append, List.cons.injEq] at h
            obtain ⟨rfl, h⟩ := h
            cases A with
            | nil =>
              simp only [List.nil_append, List.cons.injEq] at h
              exact hp'.2 (by rw [← h.1]; exact h3 e _ rfl hp'.1)
            | cons a A =>
              simp only [List.cons_append, List.cons.injEq] at h
              exact hp'.2 (by rw [← h.1]; exact h3 a _ rfl hp'.1)
          | cons a A' =>
            simp only [List.cons_append, List.cons.injEq] at h
            exact hn ⟨A', e', x', B', h.2, hp'⟩
      · rintro (⟨B, hb', hx, h⟩ | ⟨_, A, e, B, h, hp, hn⟩)
        · cases h; exact absurd (hlab hb') hx
        · cases A with
          | nil =>
            simp only [List.nil_append, List.cons.injEq] at h
            obtain ⟨rfl, rfl⟩ := h
            exact .inl ⟨B, hp.1, hp.2, rfl⟩
          | cons a A =>
            simp only [List.cons_append, List.cons.injEq] at h
            obtain ⟨rfl, rfl⟩ := h
            refine .inr ⟨fun y B' hy hs => ?_, A, e, B, rfl, hp, ?_⟩
            · by_contra hl
              cases A with
              | nil =>
                simp only [List.nil_append, List.cons.injEq] at hy
                refine hn ⟨[], s, e, [], rfl, hs, by rw [hy.1]; exact hl⟩
              | cons a A =>
                simp only [List.cons_append, List.cons.injEq] at hy
                refine hn ⟨[], s, a, A ++ [e], rfl, hs, by rw [hy.1]; exact hl⟩
            · rintro ⟨A', e', x', B', h, hp'⟩
              exact hn ⟨s :: A', e', x', B', by simp [h], hp'⟩

/-- The dead-code rule reports for a block exactly the first statement without label that directly
follows an exiting statement. -/
theorem C40_reports_exactly (s x : Stmt) : x ∈ deadCodeVisit s ↔
    ∃ A e B, s = .compound (A ++ e :: x :: B) ∧ DeadPair e x ∧ ¬ HasDeadPair (A ++ [e]) := by
  cases s with
  | compound b =>
    simp only [deadCodeVisit, deadCodeLoop_mem, Stmt.compound.injEq]
    simp
  | _ => simp [deadCodeVisit]

theorem deadCodeLoop_length (hb : Bool) (l : List Stmt) : (deadCodeLoop hb l).length ≤ 1 := by
  induction l generalizing hb with
  | nil => simp [deadCodeLoop]
  | cons s rest ih => simp only [deadCodeLoop]; split <;> simp [ih]

/-- A block is reported at most once, and it is reported exactly when one of its statements exits
and a statement without label follows. -/
theorem C40_reported_iff (b : List Stmt) :
    (deadCodeVisit (.compound b)).length ≤ 1 ∧ (deadCodeVisit (.compound b) ≠ [] ↔ HasDeadPair b) := by
  refine ⟨deadCodeLoop_length _ _, ?_, ?_⟩
  · intro h
    obtain ⟨x, hx⟩ := List.exists_mem_of_ne_nil _ h
    obtain ⟨A, e, B, hb, hp, _⟩ := (C40_reports_exactly _ _).mp hx
    cases hb
    exact ⟨A, e, x, B, rfl, hp⟩
  · intro h
    classical
    -- the pair with the shortest list in front
    have hex : ∃ n, ∃ A e x B, b = A ++ e :: x :: B ∧ DeadPair e x ∧ A.length = n := by
      obtain ⟨A, e, x, B, h, hp⟩ := h; exact ⟨_, A, e, x, B, h, hp, rfl⟩
    obtain ⟨A, e, x, B, hb, hp, hn⟩ := Nat.find_spec hex
    refine List.ne_nil_of_mem (a := x) ((C40_reports_exactly _ _).mpr ⟨A, e, B, by rw [hb], hp, ?_⟩)
    rintro ⟨A', e', x', B', h', hp'⟩
    have hlen : A'.length < A.length := by
      have := congrArg List.length h'; simp at this; omega
    refine Nat.find_min hex (m := A'.length) (by omega) ⟨A', e', x', B' ++ x :: B, ?_, hp', rfl⟩
    rw [hb]
    have : A ++ e :: x :: B = (A ++ [e]) ++ x :: B := by simp
    rw [this, h']; simp

/-! ## What cannot run -/

section
variable {σ V : Type} (W : World σ V)

theorem runL_exits {b : List Stmt} {x : Stmt} (hx : x ∈ b)
    (h : ∀ s o s', Run W .start x s o s' → o ≠ .normal) {s o s'} (hr : RunL W .start b s o s') :
    o ≠ .normal := by
  induction b generalizing s with
  | nil => simp at hx
  | cons y rest ih =>
    rw [runL_cons_start] at hr
    rcases hr with ⟨_, ho⟩ | ⟨s1, h1, h2⟩
    · exact ho
    · rcases List.mem_cons.mp hx with rfl | hx
      · exact absurd rfl (h _ _ _ h1)
      · exact ih hx h2

/-- An exiting statement, run from its start, never runs to its end. -/
theorem C39_exits_never_end {x : Stmt} (h : AlwaysExits x) {s o s'} (hr : Run W .start x s o s') :
    o ≠ .normal := by
  induction h generalizing s o s' with
  | compound hm _ ih => exact runL_exits W hm (fun _ _ _ => ih) (run_compound.mp hr)
  | ifS _ _ iht ihe =>
    rw [run_if_branch] at hr
    rcases hr with ⟨_, ho⟩ | ⟨s1, _, hb⟩
    · exact ho
    · simp only [branch] at hb
      split at hb
      · exact hb.elim
      · rw [hb.2]; simp
      · split at hb
        · exact iht hb
        · exact ihe (runO_some.mp hb)
  | caseS _ ih =>
    cases hr with
    | caseHere _ h => exact ih h
    | caseBelow h => exact absurd rfl h
    | expr h => simp [isExpr] at h
    | exprThrow h => simp [isExpr] at h
    | other h => simp [isOther] at h
  | defaultS _ ih =>
    cases hr with
    | defaultHere _ h => exact ih h
    | defaultBelow h => exact absurd rfl h
    | expr h => simp [isExpr] at h
    | exprThrow h => simp [isExpr] at h
    | other h => simp [isOther] at h
  | throwE v =>
    cases hr with
    | expr h he =>
      cases v with
      | none => simp [eval] at he
      | some e =>
        simp only [eval] at he
        rcases hee : eval W e s with _ | ⟨v, s2⟩ | s2 <;> rw [hee] at he <;> simp [Res.andThen] at he
    | exprThrow => simp
    | other h => simp [isOther] at h
  | _ =>
    cases hr <;> first | (rename_i h _; simp [isExpr, isOther] at h) | simp

/-- From no label either, if there are no labels in it but in front. -/
theorem exits_front {x : Stmt} (h : AlwaysExits x) (hf : FrontLabels W x) {e s o s'}
    (hr : Run W e x s o s') : o ≠ .normal := by
  by_cases he : e = .start
  · subst he; exact C39_exits_never_end W h hr
  · have key : ∀ x, FrontLabels W x → AlwaysExits x → ∀ s o s', Run W e x s o s' → o ≠ .normal := by
      intro x
      induction x using Stmt.rec (motive_2 := fun _ => True) (motive_3 := fun _ => True) with
      | caseS v x _ ih =>
        intro hf h s o s' hr
        cases h with
        | caseS h =>
        cases hr with
        | caseHere _ h1 => exact C39_exits_never_end W h h1
        | caseBelow _ _ _ h1 => exact ih hf h _ _ _ h1
        | expr => exact absurd rfl he
        | exprThrow => exact absurd rfl he
        | other => exact absurd rfl he
      | defaultS x ih =>
        intro hf h s o s' hr
        cases h with
        | defaultS h =>
        cases hr with
        | defaultHere _ h1 => exact C39_exits_never_end W h h1
        | defaultBelow _ _ _ h1 => exact ih hf h _ _ _ h1
        | expr => exact absurd rfl he
        | exprThrow => exact absurd rfl he
        | other => exact absurd rfl he
      | nil => trivial
      | cons => trivial
      | none => trivial
      | some => trivial
      | _ =>
        intro hf _ s o s' hr
        have := run_hasEntry hr
        rw [hf e he] at this
        simp at this
    exact key x hf h _ _ _ hr

/-- After a statement that never runs to its end, the rest only matters when it is jumped to. -/
theorem sameL_after {e : Stmt} (he : ∀ l s o s', Run W l e s o s' → o ≠ .normal)
    {X Y : List Stmt} (hent : ∀ l, l ≠ .start → hasEntryL W l X = hasEntryL W l Y)
    (hrun : ∀ l, l ≠ .start → ∀ s o s', RunL W l X s o s' ↔ RunL W l Y s o s') :
    SameL W (e :: X) (e :: Y) := by
  constructor
  · intro l
    by_cases hl : l = .start
    · subst hl; simp [hasEntryL]
    · simp [hasEntryL, hent l hl]
  · intro l s o s'
    rw [runL_cons, runL_cons]
    split
    · apply or_congr Iff.rfl
      constructor <;> rintro ⟨s1, h, _⟩ <;> exact absurd rfl (he _ _ _ _ h)
    · next h =>
      by_cases hl : l = .start
      · subst hl; simp at h
      · exact hrun l hl s o s'

/-- A reported statement is never run: any other statement, or none, can stand in its place without
a change of behaviour, in any state and from any label, and by `Spec.body_same` also of the
function around.  This needs that neither it nor the statement before can be jumped into. -/
theorem C39_dead_code_partial (b : List Stmt) (x : Stmt) (h : x ∈ deadCodeVisit (.compound b)) :
    ∃ A e B, b = A ++ e :: x :: B ∧
      (FrontLabels W e → NoEntry W x →
        Same W (.compound b) (.compound (A ++ e :: B)) ∧
        ∀ y, NoEntry W y → Same W (.compound b) (.compound (A ++ e :: y :: B))) := by
  obtain ⟨A, e, B, hb, hp, _⟩ := (C40_reports_exactly _ _).mp h
  cases hb
  refine ⟨A, e, B, rfl, fun hf hx => ⟨?_, fun y hy => ?_⟩⟩
  · refine same_compound (sameL_append (sameL_after W (fun _ _ _ _ => exits_front W hp.1 hf) ?_ ?_))
    · intro l hl; simp [hasEntryL, hx l hl]
    · intro l hl s o s'; rw [runL_cons]; simp [hx l hl]
  · refine same_compound (sameL_append (sameL_after W (fun _ _ _ _ => exits_front W hp.1 hf) ?_ ?_))
    · intro l hl; simp [hasEntryL, hx l hl, hy l hl]
    · intro l hl s o s'; rw [runL_cons, runL_cons]; simp [hx l hl, hy l hl]

end

/-- The premise is needed: in `{ goto L; { L: x = 1; } }` the inner block is reported as dead, it
runs, and the function without it never gets to its end. -/
theorem C39_label_witness :
    let L : Str := ['L']
    let x : DeclId := ⟨0, []⟩
    let dead : Stmt := .compound [.labelS L (.binary .assign (.declRef x) (.intLit 1))]
    let f : Stmt := .compound [.gotoS L, dead]
    dead ∈ deadCodeVisit f ∧ RunBody machine f .start 0 .normal 1 ∧
      ∀ s o s', ¬ RunBody machine (.compound [.gotoS L]) .start s o s' := by
  intro L x dead f
  refine ⟨(C40_reports_exactly _ _).mpr ⟨[], .gotoS L, [], rfl, ⟨.goto L, fun h => by revert h; rw [← isAnyLabel_iff]; simp [isAnyLabel, dead]⟩, ?_⟩,
    ?_, ?_⟩
  · rintro ⟨A, e, x, B, h, _⟩
    have := congrArg List.length h; simp at this; omega
  · refine .jump (l := L) (s1 := 0) (.compound (.exit (hasEntry_start _) .goto (by simp))) (.done ?_ (by simp))
    refine .compound (.skip rfl (.go rfl (.compound (.go rfl ?_ .nil)) .nil))
    exact .labelHere (.inr rfl) (.expr (v := 1) rfl rfl)
  · intro s o s' h
    have no : ∀ l : Str, ∀ s o s', ¬ Run machine (.label l) (.compound [.gotoS L]) s o s' := by
      intro l s o s' h
      have := run_hasEntry h
      simp [hasEntry, hasEntryL] at this
    cases h with
    | done h1 h2 =>
      rw [run_compound, runL_cons_start] at h1
      rcases h1 with ⟨h1, _⟩ | ⟨s1, h1, _⟩
      · cases h1 with
        | goto => exact h2 _ rfl
        | expr h => simp [isExpr] at h
        | exprThrow h => simp [isExpr] at h
        | other h => simp [isOther] at h
      · cases h1 with
        | expr h => simp [isExpr] at h
        | other h => simp [isOther] at h
    | jump _ h2 =>
      cases h2 with
      | done h1 => exact no _ _ _ _ h1
      | jump h1 => exact no _ _ _ _ h1

example : deadCodeVisit (.compound [.ifS none (.boolLit true) .breakS (some (.returnS none)),
    .nullS, .nullS]) = [.nullS] := by
  simp [deadCodeVisit, deadCodeLoop, isAnyReturn, isAnyLabel, exitType, joinExit]
example : deadCodeVisit (.compound [.returnS none, .caseS (.intLit 1) .nullS]) = [] := by
  simp [deadCodeVisit, deadCodeLoop, isAnyReturn, isAnyLabel, exitType]

end Oclint
