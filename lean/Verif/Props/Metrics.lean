import Verif.Lemmas.NPath
import Mathlib.Tactic.Tauto

/-! # C33 – C37: the code metrics -/

namespace Oclint
open Spec

/-! ## C33: cyclomatic complexity counts decision points -/

/-- The reported complexity is one more than the number of decision points occurring anywhere in
the declaration; it is not an `int` exactly when that number is too large for one. -/
theorem C33_complexity (body : List Stmt) (n : Nat) (h : Tally decisionWeight Stmt.kids body n) :
    cyclomaticComplexity body = if n + 1 ≤ intMax then .ok ((n + 1 : Nat) : Int) else .ub :=
  cyclomaticComplexity_eq h

/-- Every declaration has a (unique) number of decision points. -/
theorem C33_counted (body : List Stmt) :
    ∃ n, Tally decisionWeight Stmt.kids body n ∧
      ∀ m, Tally decisionWeight Stmt.kids body m → m = n := by
  obtain ⟨n, hn⟩ := tally_exists (w := decisionWeight) (fun _ _ h => h) body
  exact ⟨n, hn, fun m hm => tally_unique hm hn⟩

theorem C33_at_least_one (body : List Stmt) (v : Int) (h : cyclomaticComplexity body = .ok v) :
    1 ≤ v := by
  obtain ⟨n, hn, _⟩ := C33_counted body
  rw [C33_complexity body n hn] at h
  split at h
  · cases h; omega
  · cases h

/-- Sequencing: decision points add up. -/
theorem C33_additive (a b : List Stmt) (x y : Int) (ha : cyclomaticComplexity a = .ok x)
    (hb : cyclomaticComplexity b = .ok y) (hr : x + y - 1 ≤ intMax) :
    cyclomaticComplexity (a ++ b) = .ok (x + y - 1) := by
  obtain ⟨m, hm, _⟩ := C33_counted a
  obtain ⟨n, hn, _⟩ := C33_counted b
  rw [C33_complexity a m hm] at ha
  rw [C33_complexity b n hn] at hb
  rw [C33_complexity (a ++ b) (m + n) (tally_append.2 ⟨m, n, hm, hn, rfl⟩)]
  split at ha <;> cases ha
  split at hb <;> cases hb
  rw [if_pos (by omega)]
  congr 1
  omega

open Classical in
/-- Nesting: a node adds one if it is a decision point and nothing otherwise. -/
theorem C33_nesting (s : Stmt) (v : Int) (h : cyclomaticComplexity [s] = .ok v) :
    cyclomaticComplexity s.kids = .ok (v - if IsDecision s then 1 else 0) := by
  obtain ⟨m, hm, _⟩ := C33_counted s.kids
  have hs : Tally decisionWeight Stmt.kids [s] (decisionWeight s + m) := tally_single.2 ⟨m, hm, rfl⟩
  rw [C33_complexity [s] _ hs] at h
  rw [C33_complexity s.kids m hm]
  split at h <;> cases h
  rw [if_pos (by omega)]
  congr 1
  unfold decisionWeight
  split <;> omega

/-- `if (a && b) {} else { while (c) x ? y : z; }` has complexity 5. -/
example (a b c x y z : DeclId) : cyclomaticComplexity
    [.ifS none (.binary .land (.declRef a) (.declRef b)) (.compound [])
      (some (.compound [.whileS (.declRef c) (.condOp (.declRef x) (.declRef y) (.declRef z))]))] =
    .ok 5 := by rfl

/-! ## C34: NPath complexity counts acyclic walks -/

/-- The walks through a body are finitely many, and if the computation of the metric does not
overflow the result is their number.  It never fails in another way. -/
theorem C34_walks (s : Stmt) : ∃ walks : List (List Choice), walks.Nodup ∧
    (∀ w, w ∈ walks ↔ Walk s w) ∧
    (npathComplexity s = .ub ∨ npathComplexity s = .ok (walks.length : Int)) := by
  refine ⟨walksOf s, (code_walksOf s).1, mem_walksOf s, ?_⟩
  rcases nPath_res s with h | ⟨h, _⟩
  · exact .inl h
  · exact .inr h

/-- There is no overflow if the number of walks is an `int`, provided every `switch` body starts
with a label.  (Without the proviso: `C35_hidden_overflow_witness`.) -/
theorem C34_no_overflow (s : Stmt) (hs : WellLabelled s) (walks : List (List Choice))
    (hn : walks.Nodup) (hw : ∀ w, w ∈ walks ↔ Walk s w) (hfit : walks.length ≤ intMax) :
    npathComplexity s = .ok (walks.length : Int) := by
  have hp : List.Perm walks (walksOf s) := (List.perm_ext_iff_of_nodup hn (code_walksOf s).1).2
    fun w => by rw [hw, mem_walksOf]
  rw [hp.length_eq] at hfit ⊢
  exact (good_of_wellLabelled s hs).2 hfit

/-- The additional ways through a condition are its `&&`, `||` and (twice) `?:` operators. -/
theorem C34_condition (e : Stmt) (n : Nat) (h : Ways e n) :
    nPathExpr e = if n ≤ intMax then .ok (n : Int) else .ub := by
  rw [ways_iff.1 h]; exact nPathExpr_eq e

/-- Redundant parentheses and casts around a condition (or a part of it) do not matter. -/
theorem C34_parens (form : CastForm) (kind : CastKind) (p i x : Option Stmt) (a : Bool)
    (c t e b : Stmt) (o : Option Stmt) (op : BinOp) :
    npathComplexity (.ifS p (.paren c) t o) = npathComplexity (.ifS p c t o) ∧
    npathComplexity (.ifS p (.cast form kind c) t o) = npathComplexity (.ifS p c t o) ∧
    npathComplexity (.whileS (.paren c) b) = npathComplexity (.whileS c b) ∧
    npathComplexity (.whileS (.cast form kind c) b) = npathComplexity (.whileS c b) ∧
    npathComplexity (.doS b (.paren c)) = npathComplexity (.doS b c) ∧
    npathComplexity (.doS b (.cast form kind c)) = npathComplexity (.doS b c) ∧
    npathComplexity (.forS i (some (.paren c)) x b) = npathComplexity (.forS i (some c) x b) ∧
    npathComplexity (.forS i (some (.cast form kind c)) x b) =
      npathComplexity (.forS i (some c) x b) ∧
    npathComplexity (.switchS a (.paren c) b) = npathComplexity (.switchS a c b) ∧
    npathComplexity (.switchS a (.cast form kind c) b) = npathComplexity (.switchS a c b) ∧
    npathComplexity (.ifS p (.binary op (.paren c) e) t o) =
      npathComplexity (.ifS p (.binary op c e) t o) ∧
    npathComplexity (.ifS p (.binary op e (.cast form kind c)) t o) =
      npathComplexity (.ifS p (.binary op e c) t o) := by
  refine ⟨rfl, rfl, rfl, rfl, rfl, rfl, rfl, rfl, ?_, ?_, rfl, rfl⟩ <;>
    (cases b <;> rfl)

/-- `if (a && b) x; else y; while (c) z;` has 3 · 2 walks. -/
example (a b c x y z : DeclId) : npathComplexity (.compound
    [.ifS none (.binary .land (.declRef a) (.declRef b)) (.declRef x) (some (.declRef y)),
     .whileS (.declRef c) (.declRef z)]) = .ok 6 := by rfl

/-- `switch (n) { case 1: if (a) x; y; case 2: z; default: ; }` has 2 + 1 + 1 walks. -/
example (n a x y z : DeclId) : npathComplexity (.switchS false (.declRef n) (.compound
    [.caseS (.intLit 1) (.ifS none (.declRef a) (.declRef x) none), .declRef y,
     .caseS (.intLit 2) (.declRef z), .defaultS .nullS])) = .ok 4 := by rfl

/-! ## C35: NPath is at least one and never hides complexity

Not true in general: a `switch` without labels counts zero and annihilates everything around it,
blocks the metric does not descend into (`try`, `@synchronized`, `@autoreleasepool`, range-based
`for`) count one whatever they contain, and the product of the paths soon leaves the range of
`int`.  Outside these cases it holds. -/

/-- Partial: assumes that every `switch` body starts with a label. -/
theorem C35_positive_partial (s : Stmt) (hs : WellLabelled s) (v : Int)
    (h : npathComplexity s = .ok v) : 1 ≤ v := by
  have h1 := (good_of_wellLabelled s hs).1
  rcases nPath_res s with h2 | ⟨h2, _⟩ <;> rw [show npathComplexity s = nPathStmt s from rfl, h2] at h
  · cases h
  · cases h; omega

/-- Partial: assumes that every `switch` body starts with a label.  A control structure known to
the metric never has a smaller value than a statement it contains. -/
theorem C35_monotone_partial (s k : Stmt) (hs : WellLabelled s) (hk : Within k s) (v : Int)
    (h : npathComplexity s = .ok v) :
    ∃ u, npathComplexity k = .ok u ∧ u ≤ v := by
  have hkw : WellLabelled k := by
    cases hk with
    | part _ hk _ => exact wellLabelled_part hs hk
    | switchBody hk =>
      exact wellLabelled_part (s := .compound _) (wellLabelled_part hs (by simp [parts])) hk
    | switchLone _ => exact wellLabelled_part hs (by simp [parts])
  have hlen := walksOf_length_le hs hk
  rcases nPath_res s with h2 | ⟨h2, h3⟩ <;> rw [show npathComplexity s = nPathStmt s from rfl, h2] at h
  · cases h
  · cases h
    exact ⟨_, (good_of_wellLabelled k hkw).2 (by omega), by omega⟩

/-- Embedding in a bigger body can hide everything: a `switch` without labels. -/
theorem C35_hides_witness (pre : List Stmt) (n : DeclId) (v : Int)
    (h : npathComplexity (.compound pre) = .ok v) :
    npathComplexity (.compound (pre ++ [.switchS false (.declRef n) (.compound [])])) = .ok 0 := by
  have key : ∀ (l : List Stmt) (c : Int), nPathCompound c l = .ok v →
      nPathCompound c (l ++ [.switchS false (.declRef n) (.compound [])]) = .ok 0 := by
    intro l
    induction l with
    | nil =>
      intro c _
      have h0 : nPathStmt (.switchS false (.declRef n) (.compound [])) = .ok 0 := rfl
      rw [List.nil_append, nPathCompound, h0, bind_ok']
      unfold mulInt
      rw [Int.mul_zero]
      rfl
    | cons s r ih =>
      intro c hc
      rw [nPathCompound] at hc
      rw [List.cons_append, nPathCompound]
      cases hs : nPathStmt s with
      | ok x =>
        rw [hs, bind_ok'] at hc
        rw [bind_ok']
        cases hm : mulInt c x with
        | ok y => rw [hm, bind_ok'] at hc; rw [bind_ok']; exact ih y hc
        | throws w => rw [hm] at hc; cases hc
        | ub => rw [hm] at hc; cases hc
      | throws w => rw [hs] at hc; cases hc
      | ub => rw [hs] at hc; cases hc
  exact key pre 1 h

/-- Whatever a `try` block, a synchronized or autorelease pool block or the body of a range-based
`for` contains, it counts as a single path. -/
theorem C35_try_witness (block lock v : Stmt) (handlers : List Stmt) :
    npathComplexity (.cxxTry block handlers) = .ok 1 ∧
    npathComplexity (.atSynchronized lock block) = .ok 1 ∧
    npathComplexity (.autoreleasePool block) = .ok 1 ∧
    npathComplexity (.forRange lock v block) = .ok 1 := ⟨rfl, rfl, rfl, rfl⟩

/-- Thirty-one (or more) `if`s in a row have too many paths for an `int`. -/
theorem C35_overflow_witness (c x : DeclId) (n : Nat) (hn : 31 ≤ n) :
    npathComplexity (.compound (List.replicate n (.ifS none (.declRef c) (.declRef x) none))) =
      .ub := by
  have hlen : (walksSeq (List.replicate n (.ifS none (.declRef c) (.declRef x) none))).length =
      2 ^ n := by
    clear hn
    induction n with
    | zero => rfl
    | succ n ih =>
      rw [List.replicate_succ, walksSeq, length_product, ih]
      rw [show (walksOf (.ifS none (.declRef c) (.declRef x) none)).length = 2 from rfl]
      rw [Nat.pow_succ]
      omega
  have hbig : intMax < 2 ^ n := by
    have : 2 ^ 31 ≤ 2 ^ n := Nat.pow_le_pow_right (by decide) hn
    unfold intMax
    omega
  rcases nPath_res (.compound (List.replicate n (.ifS none (.declRef c) (.declRef x) none))) with
    h | ⟨_, h⟩
  · exact h
  · rw [walksOf, hlen] at h
    omega

/-- Statements in front of the first label do not count, but their computation may overflow. -/
theorem C35_hidden_overflow_witness (c x n : DeclId) :
    (∃ walks : List (List Choice), walks.length = 0 ∧ ∀ w, w ∈ walks ↔ Walk
      (.switchS false (.declRef n) (.compound
        [.compound (List.replicate 31 (.ifS none (.declRef c) (.declRef x) none))])) w) ∧
    npathComplexity (.switchS false (.declRef n) (.compound
        [.compound (List.replicate 31 (.ifS none (.declRef c) (.declRef x) none))])) = .ub := by
  constructor
  · exact ⟨_, rfl, mem_walksOf _⟩
  · have h := C35_overflow_witness c x 31 (by decide)
    unfold npathComplexity at h ⊢
    rw [nPathStmt, show nPathExpr (.declRef n) = .ok 0 from rfl, bind_ok', nPathSwitch,
      if_neg (by simp [isSwitchCase]), h]
    rfl

/-! ## C36: NCSS -/

/-- The count of a declaration with a body is one more than the weights of the statements
reachable through control structures; a declaration without body counts 0. -/
theorem C36_count (body : Stmt) (n : Nat) (h : Tally statementWeight parts [body] n) :
    ncssCount (some body) = (if n + 1 ≤ intMax then .ok ((n + 1 : Nat) : Int) else .ub) ∧
    ncssCount none = .ok 0 := by
  refine ⟨?_, rfl⟩
  have := ncss_eq body n h
  simp only [ncssCount, this]
  exact fit_bind (addInt_one n) (by omega)

theorem C36_counted (body : List Stmt) :
    ∃ n, Tally statementWeight parts body n ∧
      ∀ m, Tally statementWeight parts body m → m = n := by
  obtain ⟨n, hn⟩ := tally_exists (w := statementWeight) parts_kids body
  exact ⟨n, hn, fun m hm => tally_unique hm hn⟩

/-- Sequences add up (both counts contain the one for the declaration). -/
theorem C36_additive (a b : List Stmt) (x y : Int) (ha : ncssCount (some (.compound a)) = .ok x)
    (hb : ncssCount (some (.compound b)) = .ok y) (hr : x + y - 1 ≤ intMax) :
    ncssCount (some (.compound (a ++ b))) = .ok (x + y - 1) := by
  obtain ⟨m, hm, _⟩ := C36_counted a
  obtain ⟨n, hn, _⟩ := C36_counted b
  have wrap : ∀ {l k}, Tally statementWeight parts l k → Tally statementWeight parts [.compound l] k :=
    fun h => tally_single.2 ⟨_, h, by simp [statementWeight]⟩
  rw [(C36_count _ m (wrap hm)).1] at ha
  rw [(C36_count _ n (wrap hn)).1] at hb
  rw [(C36_count _ (m + n) (wrap (tally_append.2 ⟨m, n, hm, hn, rfl⟩))).1]
  split at ha <;> cases ha
  split at hb <;> cases hb
  rw [if_pos (by omega)]
  congr 1
  omega

/-- Redundant braces do not count. -/
theorem C36_braces (a b c : List Stmt) :
    ncssCount (some (.compound (a ++ .compound b :: c))) =
      ncssCount (some (.compound (a ++ (b ++ c)))) := by
  obtain ⟨x, hx, _⟩ := C36_counted a
  obtain ⟨y, hy, _⟩ := C36_counted b
  obtain ⟨z, hz, _⟩ := C36_counted c
  have wrap : ∀ {l k}, Tally statementWeight parts l k → Tally statementWeight parts [.compound l] k :=
    fun h => tally_single.2 ⟨_, h, by simp [statementWeight]⟩
  have h1 : Tally statementWeight parts (a ++ .compound b :: c) (x + (y + z)) :=
    tally_append.2 ⟨x, y + z, hx, tally_cons.2 ⟨y, z, wrap hy, hz, rfl⟩, rfl⟩
  have h2 : Tally statementWeight parts (a ++ (b ++ c)) (x + (y + z)) :=
    tally_append.2 ⟨x, y + z, hx, tally_append.2 ⟨y, z, hy, hz, rfl⟩, rfl⟩
  rw [(C36_count _ _ (wrap h1)).1, (C36_count _ _ (wrap h2)).1]

/-- Empty statements do not count. -/
theorem C36_empty_statement (a b : List Stmt) :
    ncssCount (some (.compound (a ++ .nullS :: b))) = ncssCount (some (.compound (a ++ b))) := by
  obtain ⟨x, hx, _⟩ := C36_counted a
  obtain ⟨y, hy, _⟩ := C36_counted b
  have wrap : ∀ {l k}, Tally statementWeight parts l k → Tally statementWeight parts [.compound l] k :=
    fun h => tally_single.2 ⟨_, h, by simp [statementWeight]⟩
  have h0 : Tally statementWeight parts [.nullS] 0 := tally_single.2 ⟨0, .nil, rfl⟩
  have h1 : Tally statementWeight parts (a ++ .nullS :: b) (x + (0 + y)) :=
    tally_append.2 ⟨x, 0 + y, hx, tally_cons.2 ⟨0, y, h0, hy, rfl⟩, rfl⟩
  have h2 : Tally statementWeight parts (a ++ b) (x + y) := tally_append.2 ⟨x, y, hx, hy, rfl⟩
  rw [(C36_count _ _ (wrap h1)).1, (C36_count _ _ (wrap h2)).1, Nat.zero_add]

/-- A leaf: a statement other than `;` and braces that has no parts. -/
def Spec.leafWeight (s : Stmt) : Nat :=
  match s with
  | .nullS => 0
  | .compound _ => 0
  | _ => if (parts s).isEmpty then 1 else 0

/-- At least one per leaf statement, and one for the declaration. -/
theorem C36_leaves (body : Stmt) (m : Nat) (h : Tally leafWeight parts [body] m) (v : Int)
    (hv : ncssCount (some body) = .ok v) : (m : Int) + 1 ≤ v := by
  obtain ⟨n, hn, _⟩ := C36_counted [body]
  have hle : ∀ {l a b}, Tally leafWeight parts l a → Tally statementWeight parts l b → a ≤ b := by
    intro l a b ha
    induction ha generalizing b with
    | nil => intro _; exact Nat.zero_le _
    | @cons s r x y _ _ ih1 ih2 =>
      intro hb
      cases hb with
      | @cons _ _ x' y' h1 h2 =>
        have a1 := ih1 h1
        have a2 := ih2 h2
        have a3 : leafWeight s ≤ statementWeight s := by
          cases s with
          | ifS p c t e => cases e <;> simp [leafWeight, statementWeight, parts]
          | _ => simp only [leafWeight, statementWeight]; first | omega | (split <;> omega)
        omega
  have := hle h hn
  rw [(C36_count body n hn).1] at hv
  split at hv <;> cases hv
  omega

/-- `if (a) x; else { y; ; } do z; while (b);` counts 1 + (2 + 1 + 1) + (2 + 1). -/
example (a b x y z : DeclId) : ncssCount (some (.compound
    [.ifS none (.declRef a) (.declRef x) (some (.compound [.declRef y, .nullS])),
     .doS (.declRef z) (.declRef b)])) = .ok 8 := by rfl

/-! ## C37: block depth -/

/-- The reported depth is the largest number of pairs of braces on a chain of nested parts. -/
theorem C37_depth (s : Stmt) : ∃ n, Chain s n ∧ (∀ m, Chain s m → m ≤ n) ∧
    stmtDepth s = if n ≤ intMax then .ok (n : Int) else .ub := by
  obtain ⟨n, ⟨h1, h2⟩, h3⟩ := depth_eq s
  exact ⟨n, h1, h2, h3⟩

/-- Wrapping a statement in braces adds exactly one. -/
theorem C37_braces (s : Stmt) (v : Int) (h : stmtDepth s = .ok v) (hr : v + 1 ≤ intMax) :
    stmtDepth (.compound [s]) = .ok (v + 1) := by
  obtain ⟨n, h1, h2, h3⟩ := C37_depth s
  obtain ⟨k, g1, g2, g3⟩ := C37_depth (.compound [s])
  have hk : k = 1 + n := by
    have a1 := g2 (1 + n) (chain_iff.2 (.inr ⟨s, by simp [parts], n, h1, rfl⟩))
    rcases chain_iff.1 g1 with rfl | ⟨x, hx, m, hm, rfl⟩
    · simp [braces] at a1 ⊢; omega
    · simp [parts] at hx
      subst hx
      have := h2 m hm
      simp [braces] at a1 ⊢
      omega
  rw [h3] at h
  split at h <;> cases h
  rw [g3, if_pos (by omega)]
  congr 1
  omega

/-- Adding statements to a block never lowers its depth. -/
theorem C37_monotone (a b c : List Stmt) (u v : Int) (h : stmtDepth (.compound (a ++ c)) = .ok u)
    (h' : stmtDepth (.compound (a ++ (b ++ c))) = .ok v) : u ≤ v := by
  obtain ⟨n, h1, h2, h3⟩ := C37_depth (.compound (a ++ c))
  obtain ⟨k, g1, g2, g3⟩ := C37_depth (.compound (a ++ (b ++ c)))
  have : Chain (.compound (a ++ (b ++ c))) n := by
    rcases chain_iff.1 h1 with rfl | ⟨x, hx, m, hm, rfl⟩
    · exact .stop _
    · exact .step (by simp [parts] at hx ⊢; tauto) hm
  have := g2 n this
  rw [h3] at h
  rw [g3] at h'
  split at h <;> cases h
  split at h' <;> cases h'
  omega

/-- `{ if (a) { { x; } } y; }` has depth 3. -/
example (a x y : DeclId) : stmtDepth (.compound
    [.ifS none (.declRef a) (.compound [.compound [.declRef x]]) none, .declRef y]) = .ok 3 := by
  rfl

end Oclint
