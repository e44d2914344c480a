import Verif.Model.RulesExpr
import Verif.Lemmas.Rules

/-!
# Rules about single statements

C50, C51 and C61 to C64: what is reported, exactly.  `Below [s] x` says that `x` is `s` or occurs
somewhere in it.
-/

namespace Oclint

open Spec

set_option linter.unusedSimpArgs false

/-! ## C50 -/

/-- `{}` or a lone `;`. -/
def EmptyStmt (b : Stmt) : Prop := b = .compound [] ∨ b = .nullS

theorem isLexicalEmpty_iff (b : Stmt) : isLexicalEmpty b = true ↔ EmptyStmt b := by
  cases b <;> simp [isLexicalEmpty, EmptyStmt]

theorem checkLexicalEmpty_some (b r : Stmt) : r ∈ checkLexicalEmpty (some b) ↔ r = b ∧ EmptyStmt b := by
  simp only [checkLexicalEmpty, ← isLexicalEmpty_iff]
  split <;> simp_all

theorem checkLexicalEmpty_opt (b : Option Stmt) (r : Stmt) :
    r ∈ checkLexicalEmpty b ↔ b = some r ∧ EmptyStmt r := by
  cases b with
  | none => simp [checkLexicalEmpty]
  | some b =>
    rw [checkLexicalEmpty_some, Option.some.injEq]
    constructor
    · rintro ⟨rfl, h⟩; exact ⟨rfl, h⟩
    · rintro ⟨rfl, h⟩; exact ⟨rfl, h⟩

/-- A `catch` block is reported exactly when it is empty. -/
theorem C50_catch (s r : Stmt) : r ∈ emptyCatchVisit s ↔
    EmptyStmt r ∧ ((∃ p, s = .cxxCatch p r) ∨ s = .atCatch r) := by
  cases s <;> simp [emptyCatchVisit, checkLexicalEmpty_some] <;>
    exact ⟨fun ⟨h, h'⟩ => ⟨h ▸ h', h.symm⟩, fun ⟨h, h'⟩ => ⟨h'.symm, h' ▸ h⟩⟩

/-- The body of a `do` loop is reported exactly when it is empty. -/
theorem C50_do (s r : Stmt) : r ∈ emptyDoWhileVisit s ↔ EmptyStmt r ∧ ∃ c, s = .doS r c := by
  cases s <;> simp [emptyDoWhileVisit, checkLexicalEmpty_some] <;>
    exact ⟨fun ⟨h, h'⟩ => ⟨h ▸ h', h.symm⟩, fun ⟨h, h'⟩ => ⟨h'.symm, h' ▸ h⟩⟩

/-- An `else` branch is reported exactly when it is empty. -/
theorem C50_else (s r : Stmt) : r ∈ emptyElseVisit s ↔
    EmptyStmt r ∧ ∃ p c t, s = .ifS p c t (some r) := by
  cases s <;> simp [emptyElseVisit, checkLexicalEmpty_opt, and_comm]

/-- A `@finally` block is reported exactly when it is empty. -/
theorem C50_finally (s r : Stmt) : r ∈ emptyFinallyVisit s ↔ EmptyStmt r ∧ s = .atFinally r := by
  cases s <;> simp [emptyFinallyVisit, checkLexicalEmpty_some] <;>
    exact ⟨fun ⟨h, h'⟩ => ⟨h ▸ h', h.symm⟩, fun ⟨h, h'⟩ => ⟨h'.symm, h' ▸ h⟩⟩

/-- The body of a `for` loop or of an Objective-C `for (x in y)` is reported exactly when it is
empty; a C++ range based loop never is. -/
theorem C50_for (s r : Stmt) : r ∈ emptyForVisit s ↔
    EmptyStmt r ∧ ((∃ i c n, s = .forS i c n r) ∨ ∃ x y, s = .forIn x y r) := by
  cases s <;> simp [emptyForVisit, checkLexicalEmpty_some] <;>
    exact ⟨fun ⟨h, h'⟩ => ⟨h ▸ h', h.symm⟩, fun ⟨h, h'⟩ => ⟨h'.symm, h' ▸ h⟩⟩

/-- The first branch of an `if` is reported exactly when it is empty. -/
theorem C50_if (s r : Stmt) : r ∈ emptyIfVisit s ↔ EmptyStmt r ∧ ∃ p c e, s = .ifS p c r e := by
  cases s <;> simp [emptyIfVisit, checkLexicalEmpty_some] <;>
    exact ⟨fun ⟨h, h'⟩ => ⟨h ▸ h', h.symm⟩, fun ⟨h, h'⟩ => ⟨h'.symm, h' ▸ h⟩⟩

/-- The body of a `switch` is reported exactly when it is empty. -/
theorem C50_switch (s r : Stmt) : r ∈ emptySwitchVisit s ↔ EmptyStmt r ∧ ∃ a c, s = .switchS a c r := by
  cases s <;> simp [emptySwitchVisit, checkLexicalEmpty_some] <;>
    exact ⟨fun ⟨h, h'⟩ => ⟨h ▸ h', h.symm⟩, fun ⟨h, h'⟩ => ⟨h'.symm, h' ▸ h⟩⟩

/-- A `try` block is reported exactly when it is empty. -/
theorem C50_try (s r : Stmt) : r ∈ emptyTryVisit s ↔
    EmptyStmt r ∧ ((∃ hs, s = .cxxTry r hs) ∨ ∃ cs f, s = .atTry r cs f) := by
  cases s <;> simp [emptyTryVisit, checkLexicalEmpty_some] <;>
    exact ⟨fun ⟨h, h'⟩ => ⟨h ▸ h', h.symm⟩, fun ⟨h, h'⟩ => ⟨h'.symm, h' ▸ h⟩⟩

/-- The body of a `while` loop is reported exactly when it is empty. -/
theorem C50_while (s r : Stmt) : r ∈ emptyWhileVisit s ↔ EmptyStmt r ∧ ∃ c, s = .whileS c r := by
  cases s <;> simp [emptyWhileVisit, checkLexicalEmpty_some] <;>
    exact ⟨fun ⟨h, h'⟩ => ⟨h ▸ h', h.symm⟩, fun ⟨h, h'⟩ => ⟨h'.symm, h' ▸ h⟩⟩

/-- Each of the rules reports at most once for a node, and over a whole program exactly for its
nodes. -/
theorem C50_once (s : Stmt) : (emptyCatchVisit s).length ≤ 1 ∧ (emptyDoWhileVisit s).length ≤ 1 ∧
    (emptyElseVisit s).length ≤ 1 ∧ (emptyFinallyVisit s).length ≤ 1 ∧ (emptyForVisit s).length ≤ 1 ∧
    (emptyIfVisit s).length ≤ 1 ∧ (emptySwitchVisit s).length ≤ 1 ∧ (emptyTryVisit s).length ≤ 1 ∧
    (emptyWhileVisit s).length ≤ 1 := by
  have h : ∀ o, (checkLexicalEmpty o).length ≤ 1 := by
    intro o
    cases o with
    | none => simp [checkLexicalEmpty]
    | some b => simp only [checkLexicalEmpty]; split <;> simp
  cases s <;> simp [emptyCatchVisit, emptyDoWhileVisit, emptyElseVisit, emptyFinallyVisit,
    emptyForVisit, emptyIfVisit, emptySwitchVisit, emptyTryVisit, emptyWhileVisit, h]

/-- In `if (c) ; else {}` both branches are reported, in a function body. -/
example :
    let s : Stmt := .compound [.ifS none (.boolLit true) .nullS (some (.compound []))]
    reportOver emptyIfVisit s = [.nullS] ∧ reportOver emptyElseVisit s = [.compound []] := ⟨rfl, rfl⟩

/-! ## C51 -/

theorem incMatchesInit_iff (inc init : Option Stmt) : incMatchesInit inc init = true ↔
    ∃ d i op d', init = some (.declS [.varD d i]) ∧ inc = some (.unary op (.declRef d')) ∧
      d.id = d'.id := by
  constructor
  · intro h
    unfold incMatchesInit at h
    split at h
    · next v d hv hd =>
      unfold varDeclFromInit at hv
      unfold valueDeclFromInc at hd
      split at hv
      · next x i =>
        split at hd
        · next op y =>
          cases hv; cases hd
          exact ⟨_, i, op, _, rfl, rfl, of_decide_eq_true h⟩
        · cases hd
      · cases hv
    · cases h
  · rintro ⟨d, i, op, d', rfl, rfl, h⟩
    simp [incMatchesInit, varDeclFromInit, valueDeclFromInc, h]

theorem innerFor_iff (body : Stmt) (inc : Option Stmt) : innerFor body = some inc ↔
    ∃ i c b, body = .forS i c inc b ∨ body = .compound [.forS i c inc b] := by
  constructor
  · intro h
    unfold innerFor at h
    split at h
    · next i c n b => cases h; exact ⟨i, c, b, .inl rfl⟩
    · next i c n b => cases h; exact ⟨i, c, b, .inr rfl⟩
    · cases h
  · rintro ⟨i, c, b, rfl | rfl⟩ <;> rfl

/-- The jumbled-incrementer rule reports exactly the increment of a `for` loop that is the body of
another one, or the only statement in it, if it applies a unary operator to the variable that the
outer loop declares. -/
theorem C51_reports_exactly (s r : Stmt) : r ∈ jumbledIncrementerVisit s ↔
    ∃ d x c n i' c' b' body op d', s = .forS (some (.declS [.varD d x])) c n body ∧
      (body = .forS i' c' (some r) b' ∨ body = .compound [.forS i' c' (some r) b']) ∧
      r = .unary op (.declRef d') ∧ d.id = d'.id := by
  constructor
  · intro h
    cases s with
    | forS init c n body =>
      simp only [jumbledIncrementerVisit] at h
      cases hi : innerFor body with
      | none => simp [hi] at h
      | some inc =>
        simp only [hi] at h
        split at h
        · next hm =>
          obtain ⟨d, i, op, d', rfl, rfl, hd⟩ := (incMatchesInit_iff _ _).mp hm
          obtain ⟨i', c', b', hb⟩ := (innerFor_iff _ _).mp hi
          simp only [Option.toList_some, List.mem_singleton] at h
          subst h
          exact ⟨d, i, c, n, i', c', b', body, op, d', rfl, hb, rfl, hd⟩
        · cases h
    | _ => simp [jumbledIncrementerVisit] at h
  · rintro ⟨d, x, c, n, i', c', b', body, op, d', rfl, hb, rfl, hd⟩
    have h1 : innerFor body = some (some (.unary op (.declRef d'))) :=
      (innerFor_iff _ _).mpr ⟨i', c', b', hb⟩
    have h2 : incMatchesInit (some (.unary op (.declRef d'))) (some (.declS [.varD d x])) = true :=
      (incMatchesInit_iff _ _).mpr ⟨d, x, op, d', rfl, rfl, hd⟩
    simp [jumbledIncrementerVisit, h1, h2]

/-- `for (int i = 0; ; ++i) { for (int j = 0; ; ++i) {} }` is reported. -/
example :
    let i : DeclId := ⟨1, "i".toList⟩
    let j : DeclId := ⟨2, "j".toList⟩
    let inc : Stmt := .unary .preInc (.declRef i)
    jumbledIncrementerVisit (.forS (some (.declS [.varD i (some (.intLit 0))])) none (some inc)
      (.compound [.forS (some (.declS [.varD j (some (.intLit 0))])) none (some inc) (.compound [])]))
      = [inc] := rfl

/-- Not covered by the rule: the outer variable declared before the loop, and `i += 1`. -/
theorem C51_misses :
    let i : DeclId := ⟨1, "i".toList⟩
    let inc : Stmt := .unary .preInc (.declRef i)
    let inc' : Stmt := .binary (.compoundAssign 0) (.declRef i) (.intLit 1)
    jumbledIncrementerVisit (.forS none none (some inc) (.forS none none (some inc) .nullS)) = [] ∧
    jumbledIncrementerVisit (.forS (some (.declS [.varD i none])) none (some inc')
      (.forS none none (some inc') .nullS)) = [] := ⟨rfl, rfl⟩

/-! ## C61 -/

/-- `&`, `|` or `^`. -/
def Bitwise (x : Stmt) : Prop := ∃ op l r, x = .binary op l r ∧ (op = .band ∨ op = .bor ∨ op = .bxor)

theorem isBitwise_iff (x : Stmt) : isBitwiseOperator x = true ↔ Bitwise x := by
  cases x with
  | binary op l r => cases op <;> simp [isBitwiseOperator, Bitwise]
  | _ => simp [isBitwiseOperator, Bitwise]

theorem conditionHasBitwise_iff (c : Stmt) :
    conditionHasBitwise c = true ↔ ∃ x, Below [c] x ∧ Bitwise x := by
  simp only [conditionHasBitwise, Bool.or_eq_true, List.any_eq_true, below_nodes, isBitwise_iff]
  rw [Stmt.nodes_eq]
  simp only [List.mem_cons, List.mem_flatMap]
  constructor
  · rintro (h | ⟨k, hk, x, hx, h⟩)
    · exact ⟨c, .inl rfl, h⟩
    · exact ⟨x, .inr ⟨k, hk, hx⟩, h⟩
  · rintro ⟨x, rfl | ⟨k, hk, hx⟩, h⟩
    · exact .inl h
    · exact .inr ⟨k, hk, x, hx, h⟩

/-- The condition of an `if`, `while`, `do` or `?:`. -/
inductive ConditionOf : Stmt → Stmt → Prop where
  | ifS {p c t e} : ConditionOf (.ifS p c t e) c
  | whileS {c b} : ConditionOf (.whileS c b) c
  | doS {b c} : ConditionOf (.doS b c) c
  | condOp {c t f} : ConditionOf (.condOp c t f) c

/-- The bitwise-operator rule reports exactly the conditions of `if`, `while`, `do` and `?:` (not
those of `for`) with `&`, `|` or `^` anywhere in them, each condition once. -/
theorem C61_reports_exactly (s r : Stmt) :
    (r ∈ bitwiseInConditionalVisit s ↔ ConditionOf s r ∧ ∃ x, Below [r] x ∧ Bitwise x) ∧
    (bitwiseInConditionalVisit s).length ≤ 1 := by
  have key : ∀ c, (r ∈ (if conditionHasBitwise c then [c] else []) ↔
      c = r ∧ ∃ x, Below [r] x ∧ Bitwise x) ∧
      (if conditionHasBitwise c then [c] else []).length ≤ 1 := by
    intro c
    rw [← conditionHasBitwise_iff r]
    split
    · next h =>
      refine ⟨⟨fun h' => ?_, fun h' => by simp [h'.1]⟩, by simp⟩
      rw [List.mem_singleton] at h'
      subst h'; exact ⟨rfl, h⟩
    · next h =>
      refine ⟨⟨fun h' => by simp at h', fun h' => ?_⟩, by simp⟩
      exact absurd (h'.1 ▸ h'.2) h
  cases s with
  | ifS p c t e =>
    refine ⟨(key c).1.trans (and_congr_left fun _ => ?_), (key c).2⟩
    exact ⟨by rintro rfl; exact .ifS, by rintro ⟨⟩; rfl⟩
  | whileS c b =>
    refine ⟨(key c).1.trans (and_congr_left fun _ => ?_), (key c).2⟩
    exact ⟨by rintro rfl; exact .whileS, by rintro ⟨⟩; rfl⟩
  | doS b c =>
    refine ⟨(key c).1.trans (and_congr_left fun _ => ?_), (key c).2⟩
    exact ⟨by rintro rfl; exact .doS, by rintro ⟨⟩; rfl⟩
  | condOp c t f =>
    refine ⟨(key c).1.trans (and_congr_left fun _ => ?_), (key c).2⟩
    exact ⟨by rintro rfl; exact .condOp, by rintro ⟨⟩; rfl⟩
  | _ =>
    simp only [bitwiseInConditionalVisit, List.not_mem_nil, List.length_nil, Nat.zero_le, and_true,
      false_iff]
    rintro ⟨⟨⟩, -⟩

/-- `while ((a & b) != 0) ;` is reported. -/
example :
    let c : Stmt := .binary .ne (.paren (.binary .band (.declRef ⟨0, []⟩) (.declRef ⟨1, []⟩))) (.intLit 0)
    bitwiseInConditionalVisit (.whileS c .nullS) = [c] := rfl

/-! ## C62 -/

/-- Every `goto` to a label is reported, wherever it is, and nothing else. -/
theorem C62_goto (root r : Stmt) :
    (r ∈ reportOver gotoVisit root ↔ Below [root] r ∧ ∃ l, r = .gotoS l) := by
  rw [reportOver_iff]
  constructor
  · rintro ⟨s, hs, h⟩
    cases s <;> simp [gotoVisit] at h
    subst h
    exact ⟨hs, _, rfl⟩
  · rintro ⟨hs, l, rfl⟩
    exact ⟨_, hs, by simp [gotoVisit]⟩

open Classical in
/-- As many reports as there are `goto`s. -/
theorem C62_goto_count (root : Stmt) : Tally (fun s => if ∃ l, s = .gotoS l then 1 else 0) Stmt.kids
    [root] (reportOver gotoVisit root).length := by
  have h := tally_filter (fun s => match s with | .gotoS _ => true | _ => false)
    (fun s => ∃ l, s = .gotoS l) (by intro s; cases s <;> simp) root
  have e : reportOver gotoVisit root =
      root.nodes.filter (fun s => match s with | .gotoS _ => true | _ => false) := by
    rw [reportOver]
    induction root.nodes with
    | nil => rfl
    | cons x l ih =>
      rw [List.flatMap_cons, ih, List.filter_cons]
      cases x <;> rfl
  rw [e]; exact h

example : reportOver gotoVisit (.compound [.whileS (.boolLit true) (.gotoS ['l']), .labelS ['l'] .nullS]) =
    [.gotoS ['l']] := rfl

/-! ## C63 -/

theorem isReturn_iff (s : Stmt) : isReturn s = true ↔ ∃ v, s = .returnS v := by
  cases s <;> simp [isReturn]

/-- Every `return` inside a `@finally` is reported. -/
theorem C63_return (s r : Stmt) : r ∈ returnFromFinallyVisit s ↔
    (∃ b, s = .atFinally b) ∧ Below [s] r ∧ ∃ v, r = .returnS v := by
  cases s <;> simp [returnFromFinallyVisit, isReturn_iff, below_nodes]

/-- A message to the class `NSException`, or to an instance of it, that raises it. -/
def RaisesException (s : Stmt) : Prop := ∃ rec sel args,
  s = .message (some "NSException".toList) rec sel args ∧
    (sel = "raise".toList ∨ sel = "raise:format:".toList ∨ sel = "raise:format:arguments:".toList)

theorem isExceptionRaise_iff (s : Stmt) : isExceptionRaise s = true ↔ RaisesException s := by
  cases s with
  | message cls rec sel args =>
    simp only [isExceptionRaise, RaisesException, raiseSelectors, Bool.and_eq_true,
      List.contains_iff_mem, List.mem_cons, List.not_mem_nil, or_false, decide_eq_true_eq,
      Stmt.message.injEq]
    constructor
    · rintro ⟨h, rfl⟩; exact ⟨rec, sel, args, ⟨rfl, rfl, rfl, rfl⟩, h⟩
    · rintro ⟨_, _, _, ⟨rfl, rfl, rfl, rfl⟩, h⟩; exact ⟨h, rfl⟩
  | _ => simp [isExceptionRaise, RaisesException]

/-- Every `@throw` and every raised `NSException` inside a `@finally` is reported. -/
theorem C63_throw (s r : Stmt) : r ∈ throwFromFinallyVisit s ↔
    (∃ b, s = .atFinally b) ∧ Below [s] r ∧ ((∃ v, r = .atThrow v) ∨ RaisesException r) := by
  have ht : isAtThrow r = true ↔ ∃ v, r = .atThrow v := by cases r <;> simp [isAtThrow]
  cases s <;> simp [throwFromFinallyVisit]
  simp only [isExceptionRaise_iff, below_nodes, ht, and_or_left]

open Classical in
/-- As many reports for one `@finally` as there are such statements in it; in a `@finally` inside of
another one they are reported for both. -/
theorem C63_counts (b : Stmt) :
    Tally (fun s => if ∃ v, s = .returnS v then 1 else 0) Stmt.kids [.atFinally b]
      (returnFromFinallyVisit (.atFinally b)).length ∧
    ∃ m n, Tally (fun s => if ∃ v, s = .atThrow v then 1 else 0) Stmt.kids [.atFinally b] m ∧
      Tally (fun s => if RaisesException s then 1 else 0) Stmt.kids [.atFinally b] n ∧
      (throwFromFinallyVisit (.atFinally b)).length = m + n := by
  refine ⟨tally_filter _ _ isReturn_iff _, _, _,
    tally_filter isAtThrow _ (by intro s; cases s <;> simp [isAtThrow]) _,
    tally_filter _ _ isExceptionRaise_iff _, ?_⟩
  simp [throwFromFinallyVisit]

/-- The reports are in the order of the source, but every `@throw` comes before every raised exception. -/
theorem C63_order (b : Stmt) :
    Gathers (fun s => ∃ v, s = .returnS v) [.atFinally b] (returnFromFinallyVisit (.atFinally b)) ∧
    ∃ l k, Gathers (fun s => ∃ v, s = .atThrow v) [.atFinally b] l ∧
      Gathers RaisesException [.atFinally b] k ∧ throwFromFinallyVisit (.atFinally b) = l ++ k :=
  ⟨gathers_filter _ _ isReturn_iff _, _, _,
    gathers_filter isAtThrow _ (by intro s; cases s <;> simp [isAtThrow]) _,
    gathers_filter _ _ isExceptionRaise_iff _, rfl⟩

/-- The `@throw` is reported before the exception that is raised ahead of it. -/
example : throwFromFinallyVisit (.atFinally (.compound
    [.message (some "NSException".toList) none "raise".toList [], .atThrow none])) =
    [.atThrow none, .message (some "NSException".toList) none "raise".toList []] := rfl

/-- `@finally { if (x) { return; } }` is reported. -/
example : returnFromFinallyVisit (.atFinally (.compound [.ifS none (.boolLit true)
    (.compound [.returnS none]) none])) = [.returnS none] := rfl

/-! ## C64 -/

/-- The body of a loop other than a C++ range based one. -/
inductive LoopBody : Stmt → Stmt → Prop where
  | forS {i c n b} : LoopBody (.forS i c n b) b
  | forIn {x y b} : LoopBody (.forIn x y b) b
  | doS {b c} : LoopBody (.doS b c) b
  | whileS {c b} : LoopBody (.whileS c b) b

/-- The rule about branching statements as last in loop reports exactly the `break`, `continue` or
`return` that is the last statement of the block of a loop. -/
theorem C64_reports_exactly (s r : Stmt) : r ∈ branchingLastVisit s ↔
    ∃ l, LoopBody s (.compound (l ++ [r])) ∧ (r = .breakS ∨ r = .continueS ∨ ∃ v, r = .returnS v) := by
  have hb : isBranching r = true ↔ (r = .breakS ∨ r = .continueS ∨ ∃ v, r = .returnS v) := by
    cases r <;> simp [isBranching]
  have key : ∀ b, r ∈ lastBranching b ↔ (∃ l, b = .compound (l ++ [r])) ∧ isBranching r = true := by
    intro b
    cases b with
    | compound b =>
      rcases List.eq_nil_or_concat b with rfl | ⟨l, x, rfl⟩
      · simp [lastBranching]
      · simp only [lastBranching, List.concat_eq_append, List.getLast?_concat, Stmt.compound.injEq, List.append_singleton_inj]
        constructor
        · intro h
          split at h
          · next hx =>
            rw [List.mem_singleton] at h
            subst h
            exact ⟨⟨l, rfl, rfl⟩, hx⟩
          · cases h
        · rintro ⟨⟨_, rfl, rfl⟩, h⟩
          rw [if_pos h, List.mem_singleton]
    | _ => simp [lastBranching]
  rw [← hb]
  cases s with
  | forS i c n b =>
    refine (key b).trans ⟨?_, ?_⟩
    · rintro ⟨⟨l, rfl⟩, h⟩; exact ⟨l, .forS, h⟩
    · rintro ⟨l, ⟨⟩, h⟩; exact ⟨⟨l, rfl⟩, h⟩
  | forIn x y b =>
    refine (key b).trans ⟨?_, ?_⟩
    · rintro ⟨⟨l, rfl⟩, h⟩; exact ⟨l, .forIn, h⟩
    · rintro ⟨l, ⟨⟩, h⟩; exact ⟨⟨l, rfl⟩, h⟩
  | doS b c =>
    refine (key b).trans ⟨?_, ?_⟩
    · rintro ⟨⟨l, rfl⟩, h⟩; exact ⟨l, .doS, h⟩
    · rintro ⟨l, ⟨⟩, h⟩; exact ⟨⟨l, rfl⟩, h⟩
  | whileS c b =>
    refine (key b).trans ⟨?_, ?_⟩
    · rintro ⟨⟨l, rfl⟩, h⟩; exact ⟨l, .whileS, h⟩
    · rintro ⟨l, ⟨⟩, h⟩; exact ⟨⟨l, rfl⟩, h⟩
  | _ =>
    simp only [branchingLastVisit, List.not_mem_nil, false_iff]
    rintro ⟨_, ⟨⟩, -⟩

/-- `while (x) { f; break; }` is reported. -/
example : branchingLastVisit (.whileS (.boolLit true) (.compound [.nullS, .breakS])) = [.breakS] := rfl

end Oclint
