import Verif.Spec.Tour
import Verif.Props.Blocks
import Verif.Props.Cocoa
import Verif.Props.CollapsibleIf
import Verif.Props.CxxRules
import Verif.Props.DeadCode
import Verif.Props.Expressions
import Verif.Props.LocalRules
import Verif.Props.NullChecks
import Verif.Props.Redundant
import Verif.Props.Switch
import Verif.Props.Unneeded

/-!
C112: a rule that looks at one statement at a time reports in the order of the source and reports no
statement twice.  The theorems about the single rules say what is among the reports; these say that the
list of reports is just that, each in its place.
-/

namespace Oclint

open Spec

/-- Nothing is left open: at most one list is the outcome of a tour. -/
theorem C112_one_outcome {R : Stmt → Stmt → Prop} {l a b : List Stmt} (ha : Tour R l a) (hb : Tour R l b) :
    a = b := by
  induction ha generalizing b with
  | nil => cases hb; rfl
  | report h hu _ _ ih1 ih2 =>
    cases hb with
    | report h' _ h1 h2 => rw [ih1 h1, ih2 h2, hu _ h']
    | silent h' _ _ => exact absurd h (h' _)
  | silent h _ _ ih1 ih2 =>
    cases hb with
    | report h' _ _ _ => exact absurd h' (h _)
    | silent _ h1 h2 => rw [ih1 h1, ih2 h2]

theorem tourMany_flatMap {G : Stmt → List Stmt → Prop} {visit : Stmt → List Stmt} (h : ∀ s, G s (visit s))
    (root : Stmt) : TourMany G [root] (reportOver visit root) := by
  have hall : ∀ s : Stmt, TourMany G s.kids ((s.kids.flatMap Stmt.nodes).flatMap visit) := by
    intro s
    induction s using Stmt.kidsInd with
    | ih s ih =>
      have hl : ∀ l : List Stmt, (∀ k ∈ l, TourMany G k.kids ((k.kids.flatMap Stmt.nodes).flatMap visit)) →
          TourMany G l ((l.flatMap Stmt.nodes).flatMap visit) := by
        intro l
        induction l with
        | nil => intro _; exact .nil
        | cons k l ihl =>
          intro hk
          rw [List.flatMap_cons, List.flatMap_append, Stmt.nodes_eq, List.flatMap_cons]
          exact .cons (h k) (hk k (by simp)) (ihl fun k' hk' => hk k' (by simp [hk']))
      exact hl _ ih
  have := TourMany.cons (h root) (hall root) (.nil (G := G))
  rwa [List.append_nil, ← List.flatMap_cons, ← Stmt.nodes_eq] at this

theorem tour_of_tourMany {R : Stmt → Stmt → Prop} {visit : Stmt → List Stmt}
    (hm : ∀ s r, r ∈ visit s ↔ R s r) (h1 : ∀ s, (visit s).length ≤ 1) {l a : List Stmt}
    (h : TourMany (fun s here => here = visit s) l a) : Tour R l a := by
  induction h with
  | nil => exact .nil
  | @cons s rest here a b hh _ _ ih1 ih2 =>
    subst hh
    cases hv : visit s with
    | nil =>
      refine .silent (fun x hx => ?_) ih1 ih2
      have := (hm s x).2 hx
      rw [hv] at this; cases this
    | cons x xs =>
      have hl := h1 s
      rw [hv, List.length_cons] at hl
      have : xs = [] := List.length_eq_zero_iff.1 (by omega)
      subst this
      refine .report ((hm s x).1 (by rw [hv]; exact List.mem_singleton.2 rfl)) (fun y hy => ?_) ih1 ih2
      have := (hm s y).2 hy
      rw [hv] at this; exact List.mem_singleton.1 this

theorem tour_of {R : Stmt → Stmt → Prop} {visit : Stmt → List Stmt}
    (hm : ∀ s r, r ∈ visit s ↔ R s r) (h1 : ∀ s, (visit s).length ≤ 1) (root : Stmt) :
    Tour R [root] (reportOver visit root) :=
  tour_of_tourMany hm h1 (tourMany_flatMap (G := fun s here => here = visit s) (fun _ => rfl) root)

/-- What is written in the code has one element at most in each of its cases. -/
local macro "once " f:ident : tactic =>
  `(tactic| (unfold $f; (repeat' split) <;> simp))

theorem deadCodeLoop_once (b : Bool) (l : List Stmt) : (deadCodeLoop b l).length ≤ 1 := by
  induction l generalizing b with
  | nil => simp [deadCodeLoop]
  | cons s l ih =>
    unfold deadCodeLoop
    split
    · simp
    · exact ih _

theorem addViolationIfLong_once (range : Stmt → Nat × Nat) (threshold : Int) (s : Option Stmt) :
    (addViolationIfStmtIsLongIf range threshold s).length ≤ 1 := by once addViolationIfStmtIsLongIf

theorem visitLoopBody_once (range : Stmt → Nat × Nat) (threshold : Int) (b : Stmt) :
    (visitLoopBody range threshold b).length ≤ 1 := addViolationIfLong_once _ _ _

theorem lastBranching_once (b : Stmt) : (lastBranching b).length ≤ 1 := by once lastBranching

/-- In the order of the source and once each: what follows a statement that always leaves the block, the first of each block. -/
theorem C112_dead_code (root : Stmt) :
    Tour (fun s r => ∃ A e B, s = .compound (A ++ e :: r :: B) ∧ DeadPair e r ∧ ¬ HasDeadPair (A ++ [e]))
      [root] (reportOver deadCodeVisit root) :=
  tour_of (fun s r => C40_reports_exactly s r) (fun s => by
    unfold deadCodeVisit; split
    · exact deadCodeLoop_once _ _
    · simp) root

/-- In the order of the source and once each: every `if` whose only content is another. -/
theorem C112_collapsible_if (root : Stmt) :
    Tour (fun s r => r = s ∧ ∃ p c t p' c' t', s = .ifS p c t none ∧
      (t = .ifS p' c' t' none ∨ t = .compound [.ifS p' c' t' none]))
      [root] (reportOver collapsibleIfVisit root) :=
  tour_of (fun s r => C41_reports_exactly s r) (fun s => by once collapsibleIfVisit) root

/-- In the order of the source and once each: every `for` with a condition and nothing else. -/
theorem C112_for_while (root : Stmt) :
    Tour (fun s r => r = s ∧ ∃ c b, s = .forS none (some c) none b ∧ c ≠ .nullS)
      [root] (reportOver forShouldBeWhileVisit root) :=
  tour_of (fun s r => C42_reports_exactly s r) (fun s => by
    unfold forShouldBeWhileVisit; (repeat' split) <;> simp <;> split <;> simp) root

/-- In the order of the source and once each: every `if` that only tells `true` from `false`. -/
theorem C112_redundant_if (root : Stmt) :
    Tour (fun s r => r = s ∧ ∃ p c t e a b, s = .ifS p c t (some e) ∧ Opposite a b ∧
      ((Only (.returnS (some a)) t ∧ Only (.returnS (some b)) e) ∨
       ∃ o l o' l', Only (.binary o l a) t ∧ Only (.binary o' l' b) e))
      [root] (reportOver redundantIfVisit root) :=
  tour_of (fun s r => C44_if_reports_exactly s r) (fun s => by once redundantIfVisit) root

/-- In the order of the source and once each: every `?:` that only tells `true` from `false`, or has one value twice. -/
theorem C112_redundant_conditional (root : Stmt) :
    Tour (fun s r => r = s ∧ ∃ c t f, s = .condOp c t f ∧ (OppositeIn t f ∨ TwiceIn t f))
      [root] (reportOver redundantConditionalVisit root) :=
  tour_of (fun s r => C44_conditional_reports_exactly s r) (fun s => by once redundantConditionalVisit) root

/-- In the order of the source and once each: every negated condition with two branches. -/
theorem C112_inverted_logic (root : Stmt) :
    Tour (fun s r => (∃ p, Negated r p) ∧
      ((∃ i t e, s = .ifS i r t (some e)) ∨ ∃ t f, s = .condOp r t f))
      [root] (reportOver invertedLogicVisit root) :=
  tour_of (fun s r => C45_reports_exactly s r) (fun s => by once invertedLogicVisit) root

/-- In the order of the source and once each: every comparison of `x % 2` with one. -/
theorem C112_broken_oddness (root : Stmt) :
    Tour (fun s r => r = s ∧ ∃ x, s = .binary .eq (.binary .rem x (.intLit 2)) (.intLit 1) ∨
      s = .binary .eq (.intLit 1) (.binary .rem x (.intLit 2)))
      [root] (reportOver brokenOddnessVisit root) :=
  tour_of (fun s r => C46_reports_exactly s r) (fun s => by once brokenOddnessVisit) root

/-- In the order of the source and once each: every double negation. -/
theorem C112_double_negative (root : Stmt) :
    Tour (fun s r => r = s ∧ ∃ op sub e, s = .unary op sub ∧
      Unparen sub (.unary op e) ∧ (op = .lnot ∨ op = .not))
      [root] (reportOver doubleNegativeVisit root) :=
  tour_of (fun s r => C47_double_reports_exactly s r) (fun s => by once doubleNegativeVisit) root

/-- In the order of the source and once each: every sign of a sign. -/
theorem C112_multiple_unary (root : Stmt) :
    Tour (fun s r => r = s ∧ ∃ op op' sub e, s = .unary op sub ∧
      Unparen sub (.unary op' e) ∧ Sign op ∧ Sign op')
      [root] (reportOver multipleUnaryVisit root) :=
  tour_of (fun s r => C47_multiple_reports_exactly s r) (fun s => by once multipleUnaryVisit) root

/-- In the order of the source and once each: every condition of an `if` that has a constant value. -/
theorem C112_constant_if (ev : Stmt → Option Bool) (root : Stmt) :
    Tour (fun s r => ∃ p t e b, s = .ifS p r t e ∧ ev r = some b)
      [root] (reportOver (constantIfVisit ev) root) :=
  tour_of (fun s r => (C48_reports_exactly ev s r).1) (fun s => by once constantIfVisit) root

/-- In the order of the source and once each: every condition of a `?:` that has a constant value. -/
theorem C112_constant_conditional (ev : Stmt → Option Bool) (root : Stmt) :
    Tour (fun s r => ∃ t f b, s = .condOp r t f ∧ ev r = some b)
      [root] (reportOver (constantConditionalVisit ev) root) :=
  tour_of (fun s r => (C48_reports_exactly ev s r).2) (fun s => by once constantConditionalVisit) root

/-- In the order of the source and once each: every `switch` over all of an enumeration that has a `default`. -/
theorem C112_covered_switch (root : Stmt) :
    Tour (fun s r => r = s ∧ ∃ c body ls x, s = .switchS true c body ∧
      LabelsOf [body] ls ∧ .defaultS x ∈ ls)
      [root] (reportOver coveredSwitchVisit root) :=
  tour_of (fun s r => C49_covered s r) (fun s => by once coveredSwitchVisit) root

/-- In the order of the source and once each: every other `switch` that has none. -/
theorem C112_missing_default (root : Stmt) :
    Tour (fun s r => r = s ∧ ∃ c body ls, s = .switchS false c body ∧
      LabelsOf [body] ls ∧ ∀ x, .defaultS x ∉ ls)
      [root] (reportOver missingDefaultVisit root) :=
  tour_of (fun s r => C49_missing_default s r) (fun s => by once missingDefaultVisit) root

/-- In the order of the source and once each: every empty block of a `catch`. -/
theorem C112_empty_catch (root : Stmt) :
    Tour (fun s r => EmptyStmt r ∧ ((∃ p, s = .cxxCatch p r) ∨ s = .atCatch r))
      [root] (reportOver emptyCatchVisit root) :=
  tour_of (fun s r => C50_catch s r) (fun s => (C50_once s).1) root

/-- In the order of the source and once each: every empty block of a `do`. -/
theorem C112_empty_do (root : Stmt) :
    Tour (fun s r => EmptyStmt r ∧ ∃ c, s = .doS r c)
      [root] (reportOver emptyDoWhileVisit root) :=
  tour_of (fun s r => C50_do s r) (fun s => (C50_once s).2.1) root

/-- In the order of the source and once each: every empty block of a `else`. -/
theorem C112_empty_else (root : Stmt) :
    Tour (fun s r => EmptyStmt r ∧ ∃ p c t, s = .ifS p c t (some r))
      [root] (reportOver emptyElseVisit root) :=
  tour_of (fun s r => C50_else s r) (fun s => (C50_once s).2.2.1) root

/-- In the order of the source and once each: every empty block of a `finally`. -/
theorem C112_empty_finally (root : Stmt) :
    Tour (fun s r => EmptyStmt r ∧ s = .atFinally r)
      [root] (reportOver emptyFinallyVisit root) :=
  tour_of (fun s r => C50_finally s r) (fun s => (C50_once s).2.2.2.1) root

/-- In the order of the source and once each: every empty block of a `for`. -/
theorem C112_empty_for (root : Stmt) :
    Tour (fun s r => EmptyStmt r ∧ ((∃ i c n, s = .forS i c n r) ∨ ∃ x y, s = .forIn x y r))
      [root] (reportOver emptyForVisit root) :=
  tour_of (fun s r => C50_for s r) (fun s => (C50_once s).2.2.2.2.1) root

/-- In the order of the source and once each: every empty block of a `if`. -/
theorem C112_empty_if (root : Stmt) :
    Tour (fun s r => EmptyStmt r ∧ ∃ p c e, s = .ifS p c r e)
      [root] (reportOver emptyIfVisit root) :=
  tour_of (fun s r => C50_if s r) (fun s => (C50_once s).2.2.2.2.2.1) root

/-- In the order of the source and once each: every empty block of a `switch`. -/
theorem C112_empty_switch (root : Stmt) :
    Tour (fun s r => EmptyStmt r ∧ ∃ a c, s = .switchS a c r)
      [root] (reportOver emptySwitchVisit root) :=
  tour_of (fun s r => C50_switch s r) (fun s => (C50_once s).2.2.2.2.2.2.1) root

/-- In the order of the source and once each: every empty block of a `try`. -/
theorem C112_empty_try (root : Stmt) :
    Tour (fun s r => EmptyStmt r ∧ ((∃ hs, s = .cxxTry r hs) ∨ ∃ cs f, s = .atTry r cs f))
      [root] (reportOver emptyTryVisit root) :=
  tour_of (fun s r => C50_try s r) (fun s => (C50_once s).2.2.2.2.2.2.2.1) root

/-- In the order of the source and once each: every empty block of a `while`. -/
theorem C112_empty_while (root : Stmt) :
    Tour (fun s r => EmptyStmt r ∧ ∃ c, s = .whileS c r)
      [root] (reportOver emptyWhileVisit root) :=
  tour_of (fun s r => C50_while s r) (fun s => (C50_once s).2.2.2.2.2.2.2.2) root

/-- In the order of the source and once each: every step of an inner loop that counts with the variable of the outer. -/
theorem C112_jumbled_incrementer (root : Stmt) :
    Tour (fun s r => ∃ d x c n i' c' b' body op d', s = .forS (some (.declS [.varD d x])) c n body ∧
      (body = .forS i' c' (some r) b' ∨ body = .compound [.forS i' c' (some r) b']) ∧
      r = .unary op (.declRef d') ∧ d.id = d'.id)
      [root] (reportOver jumbledIncrementerVisit root) :=
  tour_of (fun s r => C51_reports_exactly s r) (fun s => by once jumbledIncrementerVisit) root

/-- In the order of the source and once each: every check for null in front of a use that it lets through. -/
theorem C112_broken_null (root : Stmt) :
    Tour (fun s r => r = s ∧ ∃ n a b, n ≠ [] ∧
      UsedIn Arrow n b ∧ ((s = .binary .lor a b ∧ AsksNonNull n a) ∨
        (s = .binary .land a b ∧ AsksNull n a)))
      [root] (reportOver brokenNullVisit root) :=
  tour_of (fun s r => C52_broken s r) (fun s => by once brokenNullVisit) root

/-- In the order of the source and once each: every check for nil in front of a message that it lets through. -/
theorem C112_broken_nil (root : Stmt) :
    Tour (fun s r => r = s ∧ ∃ n a b, n ≠ [] ∧
      UsedIn MessageTo n b ∧ ((s = .binary .lor a b ∧ AsksNonNull n a) ∨
        (s = .binary .land a b ∧ AsksNull n a)))
      [root] (reportOver brokenNilVisit root) :=
  tour_of (fun s r => C52_broken_nil s r) (fun s => by once brokenNilVisit) root

/-- In the order of the source and once each: every check for null behind the use. -/
theorem C112_misplaced_null (root : Stmt) :
    Tour (fun s r => r = s ∧ ∃ n a b, n ≠ [] ∧
      UsedIn Arrow n a ∧ ((s = .binary .land a b ∧ AsksNonNull n b) ∨
        (s = .binary .lor a b ∧ AsksNull n b)))
      [root] (reportOver misplacedNullVisit root) :=
  tour_of (fun s r => C52_misplaced s r) (fun s => by once misplacedNullVisit) root

/-- In the order of the source and once each: every check for nil behind the message. -/
theorem C112_misplaced_nil (root : Stmt) :
    Tour (fun s r => r = s ∧ ∃ n a b, n ≠ [] ∧
      UsedIn MessageTo n a ∧ ((s = .binary .land a b ∧ AsksNonNull n b) ∨
        (s = .binary .lor a b ∧ AsksNull n b)))
      [root] (reportOver misplacedNilVisit root) :=
  tour_of (fun s r => C52_misplaced_nil s r) (fun s => by once misplacedNilVisit) root

/-- In the order of the source and once each: every check for nil in front of a message. -/
theorem C112_redundant_nil (root : Stmt) :
    Tour (fun s r => r = s ∧ ∃ n a b, n ≠ [] ∧ s = .binary .land a b ∧
      AsksNonNull n a ∧ (∀ e, b ≠ .unary .lnot e) ∧ UsedIn MessageTo n b)
      [root] (reportOver redundantNilVisit root) :=
  tour_of (fun s r => C52_redundant_nil s r) (fun s => by once redundantNilVisit) root

/-- In the order of the source and once each: every condition with a bitwise operator. -/
theorem C112_bitwise (root : Stmt) :
    Tour (fun s r => ConditionOf s r ∧ ∃ x, Below [r] x ∧ Bitwise x)
      [root] (reportOver bitwiseInConditionalVisit root) :=
  tour_of (fun s r => (C61_reports_exactly s r).1) (fun s => (C61_reports_exactly s s).2) root

/-- In the order of the source and once each: every `break`, `continue` or `return` at the end of the block of a loop. -/
theorem C112_branching_last (root : Stmt) :
    Tour (fun s r => ∃ l, LoopBody s (.compound (l ++ [r])) ∧
      (r = .breakS ∨ r = .continueS ∨ ∃ v, r = .returnS v))
      [root] (reportOver branchingLastVisit root) :=
  tour_of (fun s r => C64_reports_exactly s r) (fun s => by
    unfold branchingLastVisit; split <;> first | exact lastBranching_once _ | simp) root

/-- In the order of the source and once each: every `if` that only keeps a null pointer from being deleted. -/
theorem C112_null_check_dealloc (same : Stmt → Stmt → Bool) (root : Stmt) :
    Tour (fun s r => r = s ∧ ∃ pre c t p, s = .ifS pre c t none ∧ AsksFor c p ∧
      DeletesOnly same p t)
      [root] (reportOver (nullCheckDeallocVisit same) root) :=
  tour_of (fun s r => C66_reports_exactly same s r) (fun s => by once nullCheckDeallocVisit) root

/-- In the order of the source and once each: every expression in needless parentheses. -/
theorem C112_useless_parens (root : Stmt) :
    Tour (fun s r => StandsAlone s r ∧ ∃ x, r = .paren x)
      [root] (reportOver uselessParensVisit root) :=
  tour_of (fun s r => C69_node s r) (fun s => C69_once s) root

/-- In the order of the source and once each: every variable that is returned right away. -/
theorem C112_redundant_local (root : Stmt) :
    Tour (fun s r => ∃ pre k d, Declares r d.name ∧
      s = .compound (pre ++ [.declS [r], .returnS (some (.cast .implicit k (.declRef d)))]))
      [root] (reportOver redundantLocalVisit root) :=
  tour_of (fun s r => C70_node s r) (fun s => by once redundantLocalVisit) root

/-- In the order of the source and once each: every long `if` that an exit could replace. -/
theorem C112_early_exit (range : Stmt → Nat × Nat) (hr : SoundRange range) (threshold : Int) (root : Stmt) :
    Tour (fun s r => BeforeExit s r ∧ LongIf range threshold r)
      [root] (reportOver (earlyExitVisit range threshold) root) :=
  tour_of (fun s r => C71_node range hr threshold s r) (fun s => by
    unfold earlyExitVisit; (repeat' split) <;> first
      | exact addViolationIfLong_once _ _ _
      | exact visitLoopBody_once _ _ _
      | simp) root

/-- In the order of the source and once each: every `goto`. -/
theorem C112_goto (root : Stmt) :
    Tour (fun s r => r = s ∧ ∃ l, s = .gotoS l) [root] (reportOver gotoVisit root) :=
  tour_of (fun s r => by cases s <;> simp [gotoVisit]) (fun s => by once gotoVisit) root

open Classical in
/-- The too-few-branches rule reports a `switch` once. -/
theorem C112_too_few (cfg cfg' : Configurations) (limit : Int)
    (hlim : cfg.intForKey "MINIMUM_CASES_IN_SWITCH".toList 3 = .ok (limit, cfg')) (root : Stmt) :
    ∃ visit, (∀ s, tooFewBranchesVisit cfg s = .ok (visit s)) ∧
      Tour (fun s r => r = s ∧ ∃ a c body n, s = .switchS a c body ∧
        Tally (fun x => if ∃ v z, x = .caseS v z then 1 else 0) Stmt.kids [s] n ∧ (n : Int) < limit)
        [root] (reportOver visit root) := by
  choose visit hv hm using C49_too_few cfg cfg' limit hlim
  refine ⟨visit, hv, tour_of hm (fun s => ?_) root⟩
  have h := hv s
  unfold tooFewBranchesVisit at h
  rw [hlim] at h
  revert h
  generalize visit s = l
  split
  · intro h
    cases h
    split <;> simp
  · intro h
    cases h
    simp

/-- The early-exit rule with its configured limit: in the order of the source and once each. -/
theorem C112_early_exit_rule (cfg cfg' : Configurations) (range : Stmt → Nat × Nat) (hr : SoundRange range)
    (threshold : Int) (ht : cfg.intForKey "MAXIMUM_IF_LENGTH".toList 15 = .ok (threshold, cfg'))
    (root : Stmt) : ∃ rs, earlyExitRule cfg range root = .ok rs ∧
      Tour (fun s r => BeforeExit s r ∧ LongIf range threshold r) [root] rs :=
  ⟨_, by unfold earlyExitRule; rw [ht]; rfl, C112_early_exit range hr threshold root⟩

/-- The reassignments of parameters are reported in the order of the source and once each. -/
theorem C112_reassignment (f : ParamScope) :
    Gathers (fun s => ∃ d, PlainAssignment d s ∧ d.name ≠ [] ∧ ∃ q ∈ f.params, q.name = d.name) f.roots
      (parameterReassignment f) := by
  rw [parameterReassignment_eq]
  refine gathers_filter_list _ _ (fun s => ?_) _
  rw [assignsNamed_iff]
  refine exists_congr fun d => ?_
  simp only [List.mem_filter, List.mem_map, decide_eq_true_eq]
  constructor
  · rintro ⟨⟨⟨q, hq, h1⟩, h2⟩, h3⟩; exact ⟨h3, h2, q, hq, h1⟩
  · rintro ⟨h3, h2, q, hq, h1⟩; exact ⟨⟨⟨q, hq, h1⟩, h2⟩, h3⟩

/-- For every assignment in a method that is no initialiser, in the order of the source: the instance
variables on its left that the method is no accessor of, in the order of the source. -/
theorem C112_ivars (ivarName : Stmt → Option Str) (sel : Str) (body : Stmt) :
    TourMany (fun s here =>
      (∃ l, Assignment s l ∧ Gathers (fun r => (∃ n, ivarName r = some n ∧ ¬ AccessorOf n sel) ∧
        ¬ ∃ rest, sel = "init".toList ++ rest) [l] here) ∨
      ((¬ ∃ l, Assignment s l) ∧ here = []))
      [body] (ivarAssignmentVisit ivarName sel body) := by
  obtain ⟨p, hp, hf⟩ : ∃ p : Stmt → Bool,
      (∀ r, p r = true ↔ (∃ n, ivarName r = some n ∧ ¬ AccessorOf n sel) ∧
        ¬ ∃ rest, sel = "init".toList ++ rest) ∧
      ivarAssignmentVisit ivarName sel body =
        reportOver (fun s => (ivarAssignments ivarName s).filter p) body := by
    refine ⟨_, fun r => ?_, by unfold ivarAssignmentVisit reportOver; exact List.filter_flatMap⟩
    cases hn : ivarName r with
    | none => simp
    | some n => simp only [outsideAccessors_iff, Option.some.injEq, exists_eq_left']
  rw [hf]
  refine tourMany_flatMap (fun s => ?_) body
  have hl : ∀ l, Gathers (fun r => (∃ n, ivarName r = some n ∧ ¬ AccessorOf n sel) ∧
      ¬ ∃ rest, sel = "init".toList ++ rest) [l] ((ivarFetches ivarName l).filter p) := by
    intro l
    unfold ivarFetches
    rw [List.filter_filter]
    refine gathers_filter _ _ (fun r => ?_) l
    rw [Bool.and_eq_true, hp]
    refine ⟨And.left, fun h => ⟨h, ?_⟩⟩
    obtain ⟨⟨n, hn, -⟩, -⟩ := h
    rw [hn]; rfl
  unfold ivarAssignments
  split
  · next op l r =>
    cases op with
    | assign => exact Or.inl ⟨l, .plain _ _, hl l⟩
    | compoundAssign k => exact Or.inl ⟨l, .compound _ _ _, hl l⟩
    | _ =>
      refine Or.inr ⟨?_, rfl⟩
      rintro ⟨l, h⟩
      cases h
  · next h =>
    refine Or.inr ⟨?_, rfl⟩
    rintro ⟨l, h'⟩
    cases h' <;> exact h _ _ _ rfl

def isTwoWay : Stmt → Bool
  | .ifS _ _ _ (some _) => true
  | _ => false

/-- In a CUDA source every `if` with an `else`, in the order of the source and once each, of the
kernels and of the declarations that are no functions. -/
theorem C112_divergence (opts : LangOpts) (tu : List TopDecl) (body : Nat → Stmt) (h : opts.cuda = true) :
    Through (fun d => d.beginValid = true ∧ d.inMainFile = true ∧
        (d.isFunction = true → d.hasCUDAGlobal = true))
      (fun d => Gathers TwoWay [body d.id]) tu (branchDivergenceRule opts tu body) := by
  have hv : ∀ s, reportOver branchDivergenceVisit s = s.nodes.filter isTwoWay := by
    intro s
    unfold reportOver
    induction s.nodes with
    | nil => rfl
    | cons x l ih =>
      rw [List.flatMap_cons, ih, List.filter_cons]
      cases x <;> try rfl
      next p c t e => cases e <;> rfl
  have ho : ∀ s, Gathers TwoWay [s] (reportOver branchDivergenceVisit s) := fun s => by
    rw [hv]
    refine gathers_filter _ _ (fun s => ?_) _
    unfold TwoWay
    cases s <;> try (simp [isTwoWay]; done)
    next p c t e => cases e <;> simp [isTwoWay]
  unfold branchDivergenceRule visitorApply
  rw [h, if_pos rfl]
  unfold applyCUDA
  have hfold : ∀ acc : List VisitEvent, tu.foldl (fun acc d => acc ++ applyCUDADecl CUDA_GLOBAL d) acc =
      acc ++ tu.flatMap (applyCUDADecl CUDA_GLOBAL) := by
    clear h
    induction tu with
    | nil => simp
    | cons d tu ih => intro acc; rw [List.foldl_cons, ih, List.flatMap_cons, List.append_assoc]
  rw [hfold]
  simp only [List.flatMap_append, List.flatMap_cons, List.flatMap_nil, List.append_nil, List.nil_append]
  clear h hfold
  induction tu with
  | nil => exact .nil
  | cons d tu ih =>
    rw [List.flatMap_cons, List.flatMap_append]
    have hd : applyCUDADecl CUDA_GLOBAL d = if d.beginValid = true ∧ d.inMainFile = true ∧
        (d.isFunction = true → d.hasCUDAGlobal = true) then [.traverse d.id] else [] := by
      unfold applyCUDADecl isValidDecl
      rw [show maskBool (CUDA_GLOBAL &&& CUDA_GLOBAL) = true by decide,
        show maskBool (CUDA_GLOBAL &&& CUDA_HOST) = false by decide]
      cases d.beginValid <;> cases d.inMainFile <;> cases d.isFunction <;> cases d.hasCUDAGlobal <;> simp
    rw [hd]
    split
    · next hp =>
      simp only [List.flatMap_cons, List.flatMap_nil, List.append_nil]
      exact .look hp (ho _) ih
    · next hp => exact .skip hp ih

/-- Two loops that end with `break`, one inside of the other: the outer one comes first. -/
example : reportOver branchingLastVisit
    (.whileS (.intLit 1) (.compound [.whileS (.intLit 2) (.compound [.continueS]), .breakS])) =
    [.breakS, .continueS] := rfl

/-- `if (a) { if (b) { if (c) f(); } }`: the outermost comes first, the innermost is not reported. -/
example : reportOver collapsibleIfVisit (.ifS none (.intLit 1) (.compound [.ifS none (.intLit 2)
      (.compound [.ifS none (.intLit 3) .nullS none]) none]) none) =
    [.ifS none (.intLit 1) (.compound [.ifS none (.intLit 2)
      (.compound [.ifS none (.intLit 3) .nullS none]) none]) none,
     .ifS none (.intLit 2) (.compound [.ifS none (.intLit 3) .nullS none]) none] := rfl

end Oclint
