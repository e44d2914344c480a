import Verif.Model.Metrics
import Verif.Spec.Metrics
import Verif.Lemmas.Ast

/-! Lemmas about the metrics: checked arithmetic, tallies, statement counts, depth. -/

namespace Oclint
open Spec

/-- A natural number stored in an `int`. -/
def fit (n : Nat) : Outcome Int := if n ≤ intMax then .ok (n : Int) else .ub

theorem fit_of_le {n : Nat} (h : n ≤ intMax) : fit n = .ok (n : Int) := if_pos h

theorem checkInt32_natCast (n : Nat) : checkInt32 (n : Int) = fit n := by
  unfold checkInt32 fit intMax
  by_cases h : n ≤ 2147483647
  · rw [if_pos ⟨by omega, by omega⟩, if_pos h]
  · rw [if_neg (by omega), if_neg h]

theorem fit_zero : fit 0 = .ok 0 := rfl
theorem fit_one : fit 1 = .ok 1 := rfl

/-- Adding two stored numbers is storing the sum. -/
theorem fit_add {α : Type} (a b : Nat) (f : Int → Outcome α) :
    (fit a >>= fun x => fit b >>= fun y => addInt x y >>= f) = fit (a + b) >>= f := by
  unfold addInt
  by_cases ha : a ≤ intMax
  · rw [fit_of_le ha, Outcome.bind_ok]
    by_cases hb : b ≤ intMax
    · rw [fit_of_le hb, Outcome.bind_ok, ← Int.natCast_add, checkInt32_natCast]
    · simp [fit, hb, show ¬ a + b ≤ intMax by omega]
  · simp [fit, ha, show ¬ a + b ≤ intMax by omega]

theorem fit_add' (a b : Nat) :
    (fit a >>= fun x => fit b >>= fun y => addInt x y) = fit (a + b) := by
  have := fit_add a b (fun x => .ok x)
  rw [show (fit (a + b) >>= fun x => Outcome.ok x) = fit (a + b) from bind_pure _] at this
  rw [← this]
  congr 1
  funext x
  congr 1
  funext y
  exact (bind_pure _).symm

theorem addInt_comm (a b : Int) : addInt a b = addInt b a := by unfold addInt; rw [Int.add_comm]

theorem addInt_nat (a b : Nat) : addInt (a : Int) (b : Int) = fit (a + b) := by
  unfold addInt; rw [← Int.natCast_add, checkInt32_natCast]

/-- Continuing after a stored number, when the continuation fails on numbers that do not fit. -/
theorem fit_bind {a : Nat} {f : Int → Outcome Int} {c : Nat} (h : f (a : Int) = fit c)
    (hac : intMax < a → intMax < c) : (fit a >>= f) = fit c := by
  by_cases ha : a ≤ intMax
  · rw [fit_of_le ha, Outcome.bind_ok, h]
  · rw [show fit a = .ub from if_neg ha, Outcome.bind_ub]
    exact (if_neg (by have := hac (by omega); omega)).symm

theorem fit_bind' {α : Type} {a : Nat} {f g : Int → Outcome α} (h : f (a : Int) = g (a : Int)) :
    (fit a >>= f) = fit a >>= g := by
  unfold fit
  split
  · exact h
  · rfl

theorem addInt_one (a : Nat) : addInt (a : Int) 1 = fit (a + 1) := addInt_nat a 1
theorem one_addInt (a : Nat) : addInt 1 (a : Int) = fit (1 + a) := addInt_nat 1 a
theorem addInt_two (a : Nat) : addInt (a : Int) 2 = fit (a + 2) := addInt_nat a 2
theorem two_addInt (a : Nat) : addInt 2 (a : Int) = fit (2 + a) := addInt_nat 2 a
theorem addInt_zero' (a : Nat) : addInt (a : Int) 0 = fit a := addInt_nat a 0

/-- `Outcome.bind_ok`, not usable by definitional unfolding. -/
theorem bind_ok' {α β : Type} (a : α) (f : α → Outcome β) : (Outcome.ok a >>= f) = f a := by
  exact id rfl

/-- Symbolic execution of checked additions of natural numbers. -/
macro "fit_steps" : tactic => `(tactic|
  (try simp only [bind_assoc, Outcome.bind_ok]
   repeat' first
     | (simp only [addInt_one, one_addInt, addInt_two, two_addInt, addInt_zero', addInt_nat]; done)
     | (refine fit_bind ?_ (by omega)
        try simp only [addInt_one, one_addInt, addInt_two, two_addInt, addInt_zero', addInt_nat])
     | (congr 1; omega)))

/-! ## Tallies -/

section tally
variable {w : Stmt → Nat} {ch : Stmt → List Stmt}

theorem tally_append {a b : List Stmt} {n : Nat} :
    Tally w ch (a ++ b) n ↔ ∃ x y, Tally w ch a x ∧ Tally w ch b y ∧ n = x + y := by
  induction a generalizing n with
  | nil =>
    constructor
    · intro h; exact ⟨0, n, .nil, h, by omega⟩
    · rintro ⟨x, y, ha, hb, rfl⟩
      cases ha
      simpa using hb
  | cons s r ih =>
    constructor
    · intro h
      cases h with
      | cons h1 h2 =>
        obtain ⟨x, y, hx, hy, rfl⟩ := ih.1 h2
        exact ⟨_, y, .cons h1 hx, hy, by omega⟩
    · rintro ⟨x, y, ha, hb, rfl⟩
      cases ha with
      | @cons _ _ m k h1 h2 =>
        have := ih.2 ⟨_, y, h2, hb, rfl⟩
        have := Tally.cons h1 this
        rwa [show w s + m + k + y = w s + m + (k + y) by omega]

theorem tally_nil {n : Nat} : Tally w ch [] n ↔ n = 0 := by
  constructor
  · intro h; cases h; rfl
  · rintro rfl; exact .nil

theorem tally_single {s : Stmt} {n : Nat} :
    Tally w ch [s] n ↔ ∃ m, Tally w ch (ch s) m ∧ n = w s + m := by
  constructor
  · intro h
    cases h with
    | cons h1 h2 => cases h2; exact ⟨_, h1, by omega⟩
  · rintro ⟨m, h, rfl⟩
    have := Tally.cons (w := w) h .nil
    simpa using this

theorem tally_cons {s : Stmt} {r : List Stmt} {n : Nat} :
    Tally w ch (s :: r) n ↔ ∃ x y, Tally w ch [s] x ∧ Tally w ch r y ∧ n = x + y :=
  tally_append (a := [s])

/-- A tally is unique. -/
theorem tally_unique {f : List Stmt} {m n : Nat} (h1 : Tally w ch f m) (h2 : Tally w ch f n) :
    m = n := by
  induction h1 generalizing n with
  | nil => cases h2; rfl
  | cons _ _ ih1 ih2 =>
    cases h2 with
    | cons h3 h4 => rw [ih1 h3, ih2 h4]

theorem tally_exists_list {l : List Stmt} (h : ∀ k ∈ l, ∃ n, Tally w ch [k] n) :
    ∃ n, Tally w ch l n := by
  induction l with
  | nil => exact ⟨0, .nil⟩
  | cons s r ih =>
    obtain ⟨m, hm⟩ := h s List.mem_cons_self
    obtain ⟨n, hn⟩ := ih fun k hk => h k (List.mem_cons_of_mem _ hk)
    exact ⟨m + n, tally_cons.2 ⟨m, n, hm, hn, rfl⟩⟩

/-- Tallies exist when children are subtrees. -/
theorem tally_exists (hsub : ∀ s, ∀ k ∈ ch s, k ∈ s.kids) (l : List Stmt) :
    ∃ n, Tally w ch l n := by
  apply tally_exists_list
  intro s hs
  clear hs
  induction s using Stmt.kidsInd with
  | ih s ih =>
    obtain ⟨m, hm⟩ := tally_exists_list (w := w) (ch := ch) (l := ch s)
      fun k hk => ih k (hsub s k hk)
    exact ⟨_, tally_single.2 ⟨m, hm, rfl⟩⟩

theorem tally_opt {o : Option Stmt} {n : Nat} (h : Tally w ch o.toList n) :
    (o = none ∧ n = 0) ∨ ∃ s, o = some s ∧ Tally w ch [s] n := by
  cases o with
  | none => exact .inl ⟨rfl, tally_nil.1 h⟩
  | some s => exact .inr ⟨s, rfl, h⟩

end tally

theorem parts_kids (s : Stmt) : ∀ k ∈ parts s, k ∈ s.kids := by
  intro k hk
  cases s <;> simp only [parts, Stmt.kids, List.mem_cons, List.mem_append, List.not_mem_nil,
    or_false] at hk ⊢ <;> (first | exact hk | exact absurd hk id | grind)

theorem logicalParts_kids (s : Stmt) : ∀ k ∈ logicalParts s, k ∈ s.kids := by
  intro k hk
  unfold logicalParts at hk
  split at hk <;> first | exact hk | cases hk

/-! ## Cyclomatic complexity -/

theorem ccnVisit_iff (s : Stmt) : ccnVisit s = true ↔ IsDecision s := by
  constructor
  · intro h
    unfold ccnVisit at h
    split at h <;> try first | constructor | cases h
    rename_i op l r
    cases op <;> simp at h
    · exact .land _ _
    · exact .lor _ _
  · intro h
    cases h <;> simp [ccnVisit]

theorem ccnCount_eq (l : List Stmt) (c : Nat) :
    (fit c >>= fun x => ccnCount x l) = fit (c + (l.map decisionWeight).sum) := by
  induction l generalizing c with
  | nil =>
    simp only [ccnCount, List.map_nil, List.sum_nil, Nat.add_zero]
    exact bind_pure _
  | cons s r ih =>
    have hw : decisionWeight s = if ccnVisit s then 1 else 0 := by
      unfold decisionWeight
      by_cases h : IsDecision s
      · rw [if_pos h, if_pos ((ccnVisit_iff s).2 h)]
      · rw [if_neg h, if_neg (fun h' => h ((ccnVisit_iff s).1 h'))]
    simp only [List.map_cons, List.sum_cons]
    by_cases hc : c ≤ intMax
    · rw [fit_of_le hc, Outcome.bind_ok]
      simp only [ccnCount]
      rw [hw]
      by_cases h : ccnVisit s
      · rw [if_pos h, if_pos h]
        rw [show addInt (c : Int) 1 = fit (c + 1) from addInt_nat c 1, ih, Nat.add_assoc]
      · rw [if_neg h, if_neg h, Outcome.bind_ok]
        have := ih c
        rw [fit_of_le hc, Outcome.bind_ok] at this
        rw [this, Nat.zero_add]
    · rw [show fit c = .ub from if_neg hc, Outcome.bind_ub]
      exact (if_neg (by omega)).symm

theorem map_sum_nodes (w : Stmt → Nat) {l : List Stmt} {n : Nat} (h : Tally w Stmt.kids l n) :
    ((l.flatMap Stmt.nodes).map w).sum = n := by
  induction h with
  | nil => rfl
  | cons _ _ ih1 ih2 =>
    rw [List.flatMap_cons, Stmt.nodes_eq]
    simp only [List.cons_append, List.map_cons, List.sum_cons, List.map_append, List.sum_append,
      ih1, ih2]
    omega

theorem cyclomaticComplexity_eq {l : List Stmt} {n : Nat}
    (h : Tally decisionWeight Stmt.kids l n) : cyclomaticComplexity l = fit (n + 1) := by
  have := ccnCount_eq (Stmt.nodesL l) 0
  rw [fit_zero, Outcome.bind_ok, Stmt.nodesL_eq, map_sum_nodes _ h, Nat.zero_add] at this
  unfold cyclomaticComplexity
  rw [Stmt.nodesL_eq, this]
  exact fit_bind (addInt_nat n 1) (by omega)

/-! ## Statement count -/

/-- Tally of the statement weights. -/
abbrev Statements := Tally statementWeight parts

theorem ncssSum_eq {l : List Stmt} (ih : ∀ k ∈ l, ∀ n, Statements [k] n → ncss k = fit n)
    {c n : Nat} (h : Statements l n) : (fit c >>= fun x => ncssSum x l) = fit (c + n) := by
  induction l generalizing c n with
  | nil =>
    rw [tally_nil.1 h]
    simp only [ncssSum, Nat.add_zero]
    exact bind_pure _
  | cons s r ihl =>
    obtain ⟨x, y, hx, hy, rfl⟩ := tally_cons.1 h
    have hs := ih s List.mem_cons_self x hx
    have hr : ∀ c, _ := fun c => ihl (c := c) (fun k hk => ih k (List.mem_cons_of_mem _ hk)) hy
    simp only [ncssSum, hs]
    rw [fit_add c x fun z => ncssSum z r, hr (c + x), Nat.add_assoc]

theorem ncssSum_zero {l : List Stmt} (ih : ∀ k ∈ l, ∀ n, Statements [k] n → ncss k = fit n)
    {n : Nat} (h : Statements l n) : ncssSum 0 l = fit n := by
  have := ncssSum_eq ih (c := 0) h
  rwa [fit_zero, Outcome.bind_ok, Nat.zero_add] at this

theorem one_add_fit (n : Nat) : (fit n >>= fun x => addInt 1 x) = fit (1 + n) :=
  fit_bind (addInt_nat 1 n) (by omega)

theorem two_add_fit (n : Nat) : (fit n >>= fun x => addInt 2 x) = fit (2 + n) :=
  fit_bind (addInt_nat 2 n) (by omega)

theorem one_add_fit' {α : Type} (n : Nat) (f : Int → Outcome α) :
    (fit n >>= fun x => addInt 1 x >>= f) = fit (1 + n) >>= f := by
  rw [← one_add_fit]; exact (bind_assoc _ _ _).symm

theorem ncss_eq (s : Stmt) : ∀ n, Statements [s] n → ncss s = fit n := by
  induction s using Stmt.kidsInd with
  | ih s ih =>
    intro n h
    obtain ⟨m, hm, rfl⟩ := tally_single.1 h
    have ih' : ∀ k ∈ parts s, ∀ n, Statements [k] n → ncss k = fit n :=
      fun k hk => ih k (parts_kids s k hk)
    cases s with
    | compound b => 
      simp only [ncss, statementWeight, Nat.zero_add]
      exact ncssSum_zero ih' hm
    | ifS p c t e =>
      obtain ⟨x, y, hx, hy, rfl⟩ := tally_cons.1 hm
      have ht := ih' t (by simp [parts]) x hx
      cases e with
      | none =>
        rw [tally_nil.1 hy]
        simp only [ncss, ncssElse, statementWeight, Outcome.bind_ok, ht]
        rw [one_add_fit']
        exact fit_bind (addInt_nat _ 0) (by omega)
      | some e =>
        have he := ih' e (by simp [parts]) y hy
        simp only [ncss, ncssElse, statementWeight, ht, he]
        fit_steps
    | cxxTry b hs =>
      obtain ⟨x, y, hx, hy, rfl⟩ := tally_cons.1 hm
      have hb := ih' b (by simp [parts]) x hx
      have hc := ncssSum_zero (fun k hk => ih' k (by simp [parts, hk])) hy
      simp only [ncss, hb, hc, statementWeight]
      fit_steps
    | atTry b cs f =>
      obtain ⟨x, yz, hx, hyz, rfl⟩ := tally_cons.1 hm
      obtain ⟨y, z, hy, hz, rfl⟩ := tally_append.1 hyz
      have hb := ih' b (by simp [parts]) x hx
      have hc := ncssSum_zero (fun k hk => ih' k (by simp [parts, hk])) hy
      cases f with
      | none =>
        rw [tally_nil.1 hz]
        simp only [ncss, hb, hc, statementWeight, ncssFinally]
        fit_steps
      | some f =>
        have hf := ih' f (by simp [parts]) z hz
        simp only [ncss, hb, hc, statementWeight, ncssFinally, hf]
        fit_steps
    | nullS => 
      rw [tally_nil.1 hm]; rfl
    | whileS c b | doS b c | forS i c n b | forIn e c b | switchS a c b | caseS c b | defaultS b 
    | cxxCatch d b | atCatch b | atFinally b | atSynchronized c b | autoreleasePool b =>
      have := ih' b (by simp [parts]) m hm
      simp only [ncss, statementWeight, this, one_add_fit, two_add_fit]
    | _ => rw [tally_nil.1 hm]; rfl

/-! ## Depth -/

/-- `n` is the largest number of braces on a chain starting at `s`. -/
def MaxChain (s : Stmt) (n : Nat) : Prop := Chain s n ∧ ∀ m, Chain s m → m ≤ n

theorem chain_iff {s : Stmt} {m : Nat} :
    Chain s m ↔ m = braces s ∨ ∃ k ∈ parts s, ∃ n, Chain k n ∧ m = braces s + n := by
  constructor
  · intro h
    cases h with
    | stop => exact .inl rfl
    | step hk hc => exact .inr ⟨_, hk, _, hc, rfl⟩
  · rintro (rfl | ⟨k, hk, n, hc, rfl⟩)
    · exact .stop s
    · exact .step hk hc

theorem depthMax_eq {l : List Stmt} (ih : ∀ k ∈ l, ∃ n, MaxChain k n ∧ stmtDepth k = fit n)
    (c : Nat) : ∃ n, (fit c >>= fun x => depthMax x l) = fit n ∧ c ≤ n ∧
      (∀ k ∈ l, ∀ m, Chain k m → m ≤ n) ∧ (n = c ∨ ∃ k ∈ l, Chain k n) := by
  induction l generalizing c with
  | nil =>
    refine ⟨c, ?_, Nat.le_refl _, by simp, .inl rfl⟩
    simp only [depthMax]
    exact bind_pure _
  | cons s r ihl =>
    obtain ⟨d, ⟨hd1, hd2⟩, hd3⟩ := ih s List.mem_cons_self
    obtain ⟨n, hn1, hn2, hn3, hn4⟩ :=
      ihl (fun k hk => ih k (List.mem_cons_of_mem _ hk)) (max c d)
    refine ⟨n, ?_, by omega, ?_, ?_⟩
    · rw [← hn1]
      simp only [depthMax, hd3]
      by_cases hc : c ≤ intMax
      · by_cases hd : d ≤ intMax
        · rw [fit_of_le hc, fit_of_le hd, fit_of_le (by omega : max c d ≤ intMax)]
          simp only [Outcome.bind_ok]
          congr 1
          split <;> omega
        · rw [fit_of_le hc, show fit d = .ub from if_neg hd,
            show fit (max c d) = .ub from if_neg (by omega)]
          rfl
      · rw [show fit c = .ub from if_neg hc, show fit (max c d) = .ub from if_neg (by omega)]
        rfl
    · intro k hk m hm
      rcases List.mem_cons.1 hk with rfl | hk
      · have := hd2 m hm; omega
      · exact hn3 k hk m hm
    · rcases hn4 with h | ⟨k, hk, hc⟩
      · by_cases hcd : c ≤ d
        · right
          refine ⟨s, List.mem_cons_self, ?_⟩
          rwa [show n = d by omega]
        · left; omega
      · exact .inr ⟨k, List.mem_cons_of_mem _ hk, hc⟩

/-- A statement made of one part has the depth of that part. -/
theorem maxChain_single {s b : Stmt} (hb : braces s = 0) (hp : parts s = [b]) {n : Nat}
    (h : MaxChain b n) : MaxChain s n := by
  constructor
  · exact chain_iff.2 (.inr ⟨b, by simp [hp], n, h.1, by omega⟩)
  · intro m hm
    rcases chain_iff.1 hm with rfl | ⟨k, hk, j, hc, rfl⟩
    · omega
    · rw [hp] at hk
      simp at hk
      subst hk
      have := h.2 j hc
      omega

theorem maxChain_parts {s : Stmt} {n : Nat} (h1 : ∀ k ∈ parts s, ∀ m, Chain k m → m ≤ n)
    (h2 : n = 0 ∨ ∃ k ∈ parts s, Chain k n) : MaxChain s (braces s + n) := by
  constructor
  · rcases h2 with rfl | ⟨k, hk, hc⟩
    · exact .stop s
    · exact .step hk hc
  · intro m hm
    rcases chain_iff.1 hm with rfl | ⟨k, hk, j, hc, rfl⟩
    · omega
    · have := h1 k hk j hc
      omega

theorem depth_eq (s : Stmt) : ∃ n, MaxChain s n ∧ stmtDepth s = fit n := by
  induction s using Stmt.kidsInd with
  | ih s ih =>
    have ih' : ∀ k ∈ parts s, ∃ n, MaxChain k n ∧ stmtDepth k = fit n :=
      fun k hk => ih k (parts_kids s k hk)
    cases s with
    | compound b =>
      obtain ⟨n, h1, h2, h3, h4⟩ := depthMax_eq (l := b) ih' 0
      refine ⟨1 + n, maxChain_parts h3 h4, ?_⟩
      rw [fit_zero, Outcome.bind_ok] at h1
      simp only [stmtDepth, h1]
      fit_steps
    | ifS p c t e =>
      obtain ⟨x, ⟨hx1, hx2⟩, hx3⟩ := ih' t (by simp [parts])
      cases e with
      | none =>
        refine ⟨x, by
          have := maxChain_parts (s := .ifS p c t none) (n := x) (by simpa [parts] using hx2)
            (.inr ⟨t, by simp [parts], hx1⟩)
          simpa [braces] using this, ?_⟩
        simp only [stmtDepth, depthOpt, hx3, Outcome.bind_ok]
        by_cases h : x ≤ intMax
        · rw [fit_of_le h, Outcome.bind_ok]
          congr 1
          split <;> omega
        · rw [show fit x = .ub from if_neg h]; rfl
      | some e =>
        obtain ⟨y, ⟨hy1, hy2⟩, hy3⟩ := ih' e (by simp [parts])
        refine ⟨max x y, ?_, ?_⟩
        · have := maxChain_parts (s := .ifS p c t (some e)) (n := max x y)
            (by
              intro k hk m hm
              simp [parts] at hk
              rcases hk with rfl | rfl
              · have := hx2 m hm; omega
              · have := hy2 m hm; omega)
            (.inr (by
              by_cases h : x ≤ y
              · exact ⟨e, by simp [parts], by rwa [Nat.max_eq_right h]⟩
              · exact ⟨t, by simp [parts], by rwa [Nat.max_eq_left (by omega)]⟩))
          simpa [braces] using this
        · simp only [stmtDepth, depthOpt, hx3, hy3]
          by_cases h : x ≤ intMax
          · by_cases h' : y ≤ intMax
            · rw [fit_of_le h, fit_of_le h', fit_of_le (by omega : max x y ≤ intMax)]
              simp only [Outcome.bind_ok]
              congr 1
              split <;> omega
            · rw [fit_of_le h, show fit y = .ub from if_neg h',
                show fit (max x y) = .ub from if_neg (by omega)]
              rfl
          · rw [show fit x = .ub from if_neg h, show fit (max x y) = .ub from if_neg (by omega)]
            rfl
    | cxxTry b hs =>
      obtain ⟨x, ⟨hx1, hx2⟩, hx3⟩ := ih' b (by simp [parts])
      obtain ⟨n, h1, h2, h3, h4⟩ := depthMax_eq (l := hs) (fun k hk => ih' k (by simp [parts, hk])) x
      refine ⟨n, ?_, by simp only [stmtDepth, hx3, h1]⟩
      have := maxChain_parts (s := .cxxTry b hs) (n := n)
        (by
          intro k hk m hm
          simp [parts] at hk
          rcases hk with rfl | hk
          · have := hx2 m hm; omega
          · exact h3 k hk m hm)
        (.inr (by
          rcases h4 with rfl | ⟨k, hk, hc⟩
          · exact ⟨b, by simp [parts], hx1⟩
          · exact ⟨k, by simp [parts, hk], hc⟩))
      simpa [braces] using this
    | atTry b cs f =>
      obtain ⟨x, ⟨hx1, hx2⟩, hx3⟩ := ih' b (by simp [parts])
      obtain ⟨n, h1, h2, h3, h4⟩ := depthMax_eq (l := cs) (fun k hk => ih' k (by simp [parts, hk])) x
      have hf : ∃ y, depthOpt f = fit y ∧ (∀ k ∈ f.toList, ∀ m, Chain k m → m ≤ y) ∧
          (y = 0 ∨ ∃ k ∈ f.toList, Chain k y) := by
        cases f with
        | none => exact ⟨0, rfl, by simp, .inl rfl⟩
        | some f =>
          obtain ⟨y, ⟨hy1, hy2⟩, hy3⟩ := ih' f (by simp [parts])
          exact ⟨y, by simp [depthOpt, hy3], by simpa using hy2, .inr ⟨f, by simp, hy1⟩⟩
      obtain ⟨y, hy1, hy2, hy3⟩ := hf
      refine ⟨max n y, ?_, ?_⟩
      · have := maxChain_parts (s := .atTry b cs f) (n := max n y)
          (by
            intro k hk m hm
            simp only [parts, List.mem_cons, List.mem_append] at hk
            rcases hk with rfl | hk | hk
            · have := hx2 m hm; omega
            · have := h3 k hk m hm; omega
            · have := hy2 k hk m hm; omega)
          (by
            by_cases h : y ≤ n
            · rw [Nat.max_eq_left h]
              right
              rcases h4 with rfl | ⟨k, hk, hc⟩
              · exact ⟨b, by simp [parts], hx1⟩
              · exact ⟨k, by simp [parts, hk], hc⟩
            · rw [Nat.max_eq_right (by omega)]
              rcases hy3 with rfl | ⟨k, hk, hc⟩
              · exact .inl rfl
              · exact .inr ⟨k, by simp only [parts, List.mem_cons, List.mem_append]; exact .inr (.inr hk), hc⟩)
        simpa [braces] using this
      · simp only [stmtDepth, hx3]
        rw [← bind_assoc, h1, hy1]
        by_cases h : n ≤ intMax
        · by_cases h' : y ≤ intMax
          · rw [fit_of_le h, fit_of_le h', fit_of_le (by omega : max n y ≤ intMax)]
            simp only [Outcome.bind_ok]
            congr 1
            split <;> omega
          · rw [fit_of_le h, show fit y = .ub from if_neg h',
              show fit (max n y) = .ub from if_neg (by omega)]
            rfl
        · rw [show fit n = .ub from if_neg h, show fit (max n y) = .ub from if_neg (by omega)]
          rfl
    | whileS c b | doS b c | forS i c n b | forIn e c b | switchS a c b | caseS c b | defaultS b
    | cxxCatch d b | atCatch b | atFinally b | atSynchronized c b | autoreleasePool b =>
      obtain ⟨x, hx, hx3⟩ := ih' b (by simp [parts])
      exact ⟨x, maxChain_single rfl rfl hx, by simp only [stmtDepth, hx3]⟩
    | _ =>
      exact ⟨0, maxChain_parts (n := 0) (by simp [parts]) (.inl rfl), rfl⟩

end Oclint
