import Verif.Lemmas.Metrics
import Mathlib.Data.List.Nodup

/-! NPath complexity: enumeration of the walks through a body. -/

namespace Oclint
open Spec

attribute [local irreducible] intMax

theorem one_le_intMax : 1 ≤ intMax := by unfold intMax; decide

/-! ## Expressions -/

/-- The number of additional ways through an expression. -/
def waysN : Stmt → Nat
  | .condOp c t f => 2 + (waysN c + (waysN t + waysN f))
  | .binary .land l r => 1 + (waysN l + waysN r)
  | .binary .lor l r => 1 + (waysN l + waysN r)
  | .paren e => waysN e
  | .cast _ _ e => waysN e
  | _ => 0

theorem ways_waysN (e : Stmt) : Ways e (waysN e) := by
  have one : ∀ {s a}, Tally logicalWeight logicalParts [s] a →
      Tally logicalWeight logicalParts [s] a := fun h => h
  induction e using Stmt.kidsInd with
  | ih e ih =>
    unfold Ways at *
    rw [tally_single]
    unfold waysN
    split
    · rename_i c t f
      refine ⟨_, tally_cons.2 ⟨_, _, ih c (by simp [Stmt.kids]),
        tally_cons.2 ⟨_, _, ih t (by simp [Stmt.kids]), ih f (by simp [Stmt.kids]), rfl⟩, rfl⟩, ?_⟩
      simp only [logicalWeight]
    · rename_i l r
      refine ⟨_, tally_cons.2 ⟨_, _, ih l (by simp [Stmt.kids]), ih r (by simp [Stmt.kids]), rfl⟩, ?_⟩
      simp only [logicalWeight]
    · rename_i l r
      refine ⟨_, tally_cons.2 ⟨_, _, ih l (by simp [Stmt.kids]), ih r (by simp [Stmt.kids]), rfl⟩, ?_⟩
      simp only [logicalWeight]
    · rename_i e
      exact ⟨_, ih e (by simp [Stmt.kids]), by simp only [logicalWeight, Nat.zero_add]⟩
    · rename_i e
      exact ⟨_, ih e (by simp [Stmt.kids]), by simp only [logicalWeight, Nat.zero_add]⟩
    · refine ⟨0, ?_, ?_⟩
      · unfold logicalParts
        split
        any_goals exact .nil
        all_goals simp_all
      · unfold logicalWeight
        split
        any_goals rfl
        all_goals simp_all

theorem ways_iff {e : Stmt} {n : Nat} : Ways e n ↔ n = waysN e :=
  ⟨fun h => tally_unique h (ways_waysN e), fun h => h ▸ ways_waysN e⟩

theorem nPathExpr_eq (e : Stmt) : nPathExpr e = fit (waysN e) := by
  induction e using Stmt.kidsInd with
  | ih e ih =>
    cases e with
    | condOp c t f =>
      simp only [nPathExpr, ih c (by simp [Stmt.kids]), ih t (by simp [Stmt.kids]),
        ih f (by simp [Stmt.kids]), waysN]
      fit_steps
    | binary op l r =>
      have hl := ih l (by simp [Stmt.kids])
      have hr := ih r (by simp [Stmt.kids])
      cases op
      case land | lor =>
        simp only [nPathExpr, hl, hr, waysN]
        simp only [decide_true, Bool.true_or, Bool.or_true, if_true]
        fit_steps
      all_goals rfl
    | paren e => simp only [nPathExpr, ih e (by simp [Stmt.kids]), waysN]
    | cast f k e => simp only [nPathExpr, ih e (by simp [Stmt.kids]), waysN]
    | _ => rfl

/-! ## Enumerating walks -/

/-- The early exits of a condition. -/
def earlies (n : Nat) : List (List Choice) := (List.range n).map fun i => [.early i]

/-- All concatenations. -/
def product (a b : List (List Choice)) : List (List Choice) :=
  a.flatMap fun u => b.map (u ++ ·)

mutual
/-- All walks through a statement. -/
def walksOf : Stmt → List (List Choice)
  | .compound b => walksSeq b
  | .ifS _ c t e => earlies (waysN c) ++ ((walksOf t).map (.yes :: ·) ++ (walksO e).map (.no :: ·))
  | .whileS c b => earlies (waysN c) ++ ((walksOf b).map (.yes :: ·) ++ [[.no]])
  | .doS b c => earlies (waysN c) ++ ((walksOf b).map (.yes :: ·) ++ [[.no]])
  | .forS i c n b =>
    (walksO i).map (.init :: ·) ++ (earlies (c.elim 0 waysN) ++
      ((List.range (n.elim 0 waysN)).map (fun i => [.incr i]) ++
        ((walksOf b).map (.yes :: ·) ++ [[.no]])))
  | .switchS _ c (.compound b) => earlies (waysN c) ++ walksSections 0 b
  | .switchS _ c b => earlies (waysN c) ++ (walksOf b).map (.label 0 :: ·)
  | .caseS _ s => walksOf s
  | .defaultS s => walksOf s
  | .forIn _ _ b => (walksOf b).map (.yes :: ·) ++ [[.no], [.init]]
  | _ => [[]]

/-- All walks through a sequence. -/
def walksSeq : List Stmt → List (List Choice)
  | [] => [[]]
  | s :: r => product (walksOf s) (walksSeq r)

/-- All walks through an optional statement. -/
def walksO : Option Stmt → List (List Choice)
  | none => [[]]
  | some s => walksOf s

/-- All walks up to the next label. -/
def walksHead : List Stmt → List (List Choice)
  | [] => [[]]
  | s :: r => if isSwitchCase s then [[]] else product (walksOf s) (walksHead r)

/-- All walks through the sections of a switch body. -/
def walksSections (i : Nat) : List Stmt → List (List Choice)
  | [] => []
  | s :: r =>
    if isSwitchCase s then
      (product (walksOf s) (walksHead r)).map (.label i :: ·) ++ walksSections (i + 1) r
    else walksSections i r
end

theorem length_product (a b : List (List Choice)) :
    (product a b).length = a.length * b.length := by
  unfold product
  induction a with
  | nil => simp
  | cons u a ih => simp [ih, Nat.add_mul, Nat.add_comm]

theorem mem_product {a b : List (List Choice)} {w : List Choice} :
    w ∈ product a b ↔ ∃ u ∈ a, ∃ v ∈ b, w = u ++ v := by
  simp [product, List.mem_flatMap, List.mem_map, eq_comm]

theorem mem_earlies {n : Nat} {w : List Choice} :
    w ∈ earlies n ↔ ∃ i, i < n ∧ w = [.early i] := by
  simp [earlies, List.mem_map, List.mem_range, eq_comm]

theorem isSwitchCase_iff (s : Stmt) : isSwitchCase s = true ↔ IsLabel s := by
  unfold IsLabel
  constructor
  · intro h
    cases s <;> simp [isSwitchCase] at h
    · exact .inl ⟨_, _, rfl⟩
    · exact .inr ⟨_, rfl⟩
  · rintro (⟨v, b, rfl⟩ | ⟨b, rfl⟩) <;> rfl

/-- Well-founded induction on tree size. -/
theorem Stmt.sizeInd {P : Stmt → Prop}
    (ih : ∀ s, (∀ k, sizeOf k < sizeOf s → P k) → P s) (s : Stmt) : P s :=
  ih s fun k _hk => Stmt.sizeInd ih k
termination_by sizeOf s

theorem mem_takeWhile_pos {p : Stmt → Bool} {l : List Stmt} {s : Stmt} (h : s ∈ l.takeWhile p) :
    p s = true := by
  induction l with
  | nil => simp at h
  | cons a r ih =>
    rw [List.takeWhile_cons] at h
    split at h
    · rcases List.mem_cons.1 h with rfl | h
      · assumption
      · exact ih h
    · simp at h

/-- Sections of a body. -/
theorem section_cons_label {l : Stmt} {r : List Stmt} (hl : IsLabel l) {i : Nat} {sec : List Stmt} :
    Section (l :: r) i sec ↔
      (i = 0 ∧ sec = l :: r.takeWhile (fun s => !isSwitchCase s)) ∨
      ∃ j, i = j + 1 ∧ Section r j sec := by
  constructor
  · intro h
    cases h with
    | here h1 h2 h3 =>
      rename_i sc rest
      left
      refine ⟨rfl, ?_⟩
      congr 1
      rw [List.takeWhile_append_of_pos]
      · rcases h3 with rfl | ⟨l', r', rfl, hl'⟩
        · simp
        · rw [List.takeWhile_cons, (isSwitchCase_iff l').2 hl']
          simp
      · intro s hs
        have := h2 s hs
        rw [← isSwitchCase_iff] at this
        simpa using this
    | later _ h => exact .inr ⟨_, rfl, h⟩
    | skip h _ => exact absurd hl h
  · rintro (⟨rfl, rfl⟩ | ⟨j, rfl, h⟩)
    · have := Section.here (l := l) (sec := r.takeWhile (fun s => !isSwitchCase s))
        (rest := r.dropWhile (fun s => !isSwitchCase s)) hl ?_ ?_
      · rwa [List.takeWhile_append_dropWhile] at this
      · intro s hs
        have := mem_takeWhile_pos hs
        rw [← isSwitchCase_iff]
        simpa using this
      · cases hd : r.dropWhile (fun s => !isSwitchCase s) with
        | nil => exact .inl rfl
        | cons l' r' =>
          have := List.head_dropWhile_not (fun s => !isSwitchCase s) (l := r) (by rw [hd]; simp)
          simp [hd] at this
          exact .inr ⟨l', r', rfl, (isSwitchCase_iff l').1 this⟩
    · exact .later hl h

theorem section_cons_plain {s : Stmt} {r : List Stmt} (hs : ¬ IsLabel s) {i : Nat}
    {sec : List Stmt} : Section (s :: r) i sec ↔ Section r i sec := by
  constructor
  · intro h
    cases h with
    | here h1 => exact absurd h1 hs
    | later h1 => exact absurd h1 hs
    | skip _ h => exact h
  · exact .skip hs

theorem section_nil {i : Nat} {sec : List Stmt} : ¬ Section [] i sec := by
  intro h; cases h

theorem walks_cons {s : Stmt} {r : List Stmt} {w : List Choice} :
    Walks (s :: r) w ↔ ∃ u, Walk s u ∧ ∃ v, Walks r v ∧ w = u ++ v := by
  constructor
  · intro h; cases h with | cons h1 h2 => exact ⟨_, h1, _, h2, rfl⟩
  · rintro ⟨u, hu, v, hv, rfl⟩; exact .cons hu hv

theorem walks_nil {w : List Choice} : Walks [] w ↔ w = [] := by
  constructor
  · intro h; cases h; rfl
  · rintro rfl; exact .nil

theorem mem_walksSeq {l : List Stmt} (ih : ∀ k ∈ l, ∀ w, w ∈ walksOf k ↔ Walk k w)
    (w : List Choice) : w ∈ walksSeq l ↔ Walks l w := by
  induction l generalizing w with
  | nil => simp [walksSeq, walks_nil]
  | cons s r ihl =>
    have h1 := ih s List.mem_cons_self
    have h2 := ihl fun k hk => ih k (List.mem_cons_of_mem _ hk)
    rw [walksSeq, mem_product, walks_cons]
    simp only [h1, h2]

theorem mem_walksHead {l : List Stmt} (ih : ∀ k ∈ l, ∀ w, w ∈ walksOf k ↔ Walk k w)
    (w : List Choice) :
    w ∈ walksHead l ↔ Walks (l.takeWhile fun s => !isSwitchCase s) w := by
  induction l generalizing w with
  | nil => simp [walksHead, walks_nil]
  | cons s r ihl =>
    have h1 := ih s List.mem_cons_self
    have h2 := ihl fun k hk => ih k (List.mem_cons_of_mem _ hk)
    rw [walksHead, List.takeWhile_cons]
    cases hs : isSwitchCase s
    · simp [mem_product, walks_cons, h1, h2]
    · simp [walks_nil]

theorem mem_walksSections {l : List Stmt} (ih : ∀ k ∈ l, ∀ w, w ∈ walksOf k ↔ Walk k w)
    (i : Nat) (w : List Choice) :
    w ∈ walksSections i l ↔
      ∃ j sec v, Section l j sec ∧ Walks sec v ∧ w = .label (i + j) :: v := by
  induction l generalizing w i with
  | nil => simp [walksSections, section_nil]
  | cons s r ihl =>
    have h1 := ih s List.mem_cons_self
    have h2 := ihl fun k hk => ih k (List.mem_cons_of_mem _ hk)
    have h3 := mem_walksHead fun k hk => ih k (List.mem_cons_of_mem s hk)
    rw [walksSections]
    by_cases hs : isSwitchCase s = true
    · have hl := (isSwitchCase_iff s).1 hs
      rw [if_pos hs]
      simp only [List.mem_append, List.mem_map, mem_product, h1, h2, h3, section_cons_label hl]
      constructor
      · rintro (⟨_, ⟨u, hu, v, hv, rfl⟩, rfl⟩ | ⟨j, sec, v, hsec, hv, rfl⟩)
        · exact ⟨0, _, _, .inl ⟨rfl, rfl⟩, .cons hu hv, rfl⟩
        · exact ⟨j + 1, sec, v, .inr ⟨j, rfl, hsec⟩, hv, by rw [Nat.add_assoc, Nat.add_comm 1]⟩
      · rintro ⟨j, sec, v, (⟨rfl, rfl⟩ | ⟨j, rfl, hsec⟩), hv, rfl⟩
        · obtain ⟨u, hu, v', hv', rfl⟩ := walks_cons.1 hv
          exact .inl ⟨_, ⟨u, hu, v', hv', rfl⟩, rfl⟩
        · exact .inr ⟨j, sec, v, hsec, hv, by rw [Nat.add_assoc, Nat.add_comm 1]⟩
    · rw [if_neg hs]
      simp only [h2, section_cons_plain (fun h => hs ((isSwitchCase_iff s).2 h))]

theorem sizeOf_sub {s k : Stmt} (h : k ∈ s.kids) : sizeOf k < sizeOf s := Stmt.sizeOf_kid h

/-- The enumeration is exactly the set of walks. -/
theorem mem_walksOf (s : Stmt) : ∀ w, w ∈ walksOf s ↔ Walk s w := by
  induction s using Stmt.sizeInd with
  | ih s ih =>
    have kid : ∀ k ∈ s.kids, ∀ w, w ∈ walksOf k ↔ Walk k w := fun k hk => ih k (sizeOf_sub hk)
    intro w
    cases s with
    | compound b =>
      rw [walksOf, mem_walksSeq (l := b) kid]
      exact ⟨.seq, fun h => by cases h with | plain h => exact absurd (.compound b) h | seq h => exact h⟩
    | ifS p c t e =>
      have ht := kid t (by simp [Stmt.kids])
      rw [walksOf]
      simp only [List.mem_append, mem_earlies, List.mem_map, ht]
      constructor
      · rintro (⟨i, hi, rfl⟩ | ⟨w, hw, rfl⟩ | ⟨w, hw, rfl⟩)
        · exact .ifEarly (ways_waysN c) hi
        · exact .ifThen hw
        · cases e with
          | none => simp [walksO] at hw; subst hw; exact .ifNoElse
          | some e => exact .ifElse ((kid e (by simp [Stmt.kids]) w).1 hw)
      · intro h
        cases h with
        | plain h => exact absurd (.ifS p c t e) h
        | ifEarly h1 h2 => rw [ways_iff.1 h1] at h2; exact .inl ⟨_, h2, rfl⟩
        | ifThen h => exact .inr (.inl ⟨_, h, rfl⟩)
        | @ifElse _ _ _ e' w h =>
          exact .inr (.inr ⟨w, (kid e' (by simp [Stmt.kids]) w).2 h, rfl⟩)
        | ifNoElse => exact .inr (.inr ⟨[], by simp [walksO], rfl⟩)
    | whileS c b =>
      have hb := kid b (by simp [Stmt.kids])
      rw [walksOf]
      simp only [List.mem_append, mem_earlies, List.mem_map, hb, List.mem_singleton]
      constructor
      · rintro (⟨i, hi, rfl⟩ | ⟨w, hw, rfl⟩ | rfl)
        · exact .whileEarly (ways_waysN c) hi
        · exact .whileBody hw
        · exact .whileSkip
      · intro h
        cases h with
        | plain h => exact absurd (.whileS c b) h
        | whileEarly h1 h2 => rw [ways_iff.1 h1] at h2; exact .inl ⟨_, h2, rfl⟩
        | whileBody h => exact .inr (.inl ⟨_, h, rfl⟩)
        | whileSkip => exact .inr (.inr rfl)
    | doS b c =>
      have hb := kid b (by simp [Stmt.kids])
      rw [walksOf]
      simp only [List.mem_append, mem_earlies, List.mem_map, hb, List.mem_singleton]
      constructor
      · rintro (⟨i, hi, rfl⟩ | ⟨w, hw, rfl⟩ | rfl)
        · exact .doEarly (ways_waysN c) hi
        · exact .doBody hw
        · exact .doBack
      · intro h
        cases h with
        | plain h => exact absurd (.doS b c) h
        | doEarly h1 h2 => rw [ways_iff.1 h1] at h2; exact .inl ⟨_, h2, rfl⟩
        | doBody h => exact .inr (.inl ⟨_, h, rfl⟩)
        | doBack => exact .inr (.inr rfl)
    | forS i c n b =>
      have hb := kid b (by simp [Stmt.kids])
      rw [walksOf]
      simp only [List.mem_append, mem_earlies, List.mem_map, hb, List.mem_singleton, List.mem_range]
      constructor
      · rintro (⟨w, hw, rfl⟩ | ⟨k, hk, rfl⟩ | ⟨k, hk, rfl⟩ | ⟨w, hw, rfl⟩ | rfl)
        · cases i with
          | none => simp [walksO] at hw; subst hw; exact .forNoInit
          | some i => exact .forInit ((kid i (by simp [Stmt.kids]) w).1 hw)
        · cases c with
          | none => simp at hk
          | some c => exact .forEarly (ways_waysN c) hk
        · cases n with
          | none => simp at hk
          | some n => exact .forIncr (ways_waysN n) hk
        · exact .forBody hw
        · exact .forSkip
      · intro h
        cases h with
        | plain h => exact absurd (.forS i c n b) h
        | @forInit i' _ _ _ w h => exact .inl ⟨w, (kid i' (by simp [Stmt.kids]) w).2 h, rfl⟩
        | forNoInit => exact .inl ⟨[], by simp [walksO], rfl⟩
        | forEarly h1 h2 => rw [ways_iff.1 h1] at h2; exact .inr (.inl ⟨_, h2, rfl⟩)
        | forIncr h1 h2 => rw [ways_iff.1 h1] at h2; exact .inr (.inr (.inl ⟨_, h2, rfl⟩))
        | forBody h => exact .inr (.inr (.inr (.inl ⟨_, h, rfl⟩)))
        | forSkip => exact .inr (.inr (.inr (.inr rfl)))
    | forIn e c b =>
      have hb := kid b (by simp [Stmt.kids])
      rw [walksOf]
      simp only [List.mem_append, List.mem_map, hb, List.mem_cons, List.not_mem_nil, or_false]
      constructor
      · rintro (⟨w, hw, rfl⟩ | rfl | rfl)
        · exact .inBody hw
        · exact .inSkip
        · exact .inInit
      · intro h
        cases h with
        | plain h => exact absurd (.forIn e c b) h
        | inBody h => exact .inl ⟨_, h, rfl⟩
        | inSkip => exact .inr (.inl rfl)
        | inInit => exact .inr (.inr rfl)
    | switchS a c b =>
      by_cases hb : ∃ l, b = .compound l
      · obtain ⟨l, rfl⟩ := hb
        have hl : ∀ k ∈ l, ∀ w, w ∈ walksOf k ↔ Walk k w := fun k hk => ih k (by
          have h1 : sizeOf k < sizeOf (Stmt.compound l) := sizeOf_sub (by simpa [Stmt.kids] using hk)
          have h2 : sizeOf (Stmt.compound l) < sizeOf (Stmt.switchS a c (.compound l)) :=
            sizeOf_sub (by simp [Stmt.kids])
          omega)
        rw [walksOf]
        simp only [List.mem_append, mem_earlies, mem_walksSections hl, Nat.zero_add]
        constructor
        · rintro (⟨i, hi, rfl⟩ | ⟨j, sec, v, h1, h2, rfl⟩)
          · exact .switchEarly (ways_waysN c) hi
          · exact .switchSection h1 h2
        · intro h
          cases h with
          | plain h => exact absurd (.switchS a c _) h
          | switchEarly h1 h2 => rw [ways_iff.1 h1] at h2; exact .inl ⟨_, h2, rfl⟩
          | switchSection h1 h2 => exact .inr ⟨_, _, _, h1, h2, rfl⟩
          | switchBody h => exact absurd rfl (h l)
      · have hb' := kid b (by simp [Stmt.kids])
        have : walksOf (.switchS a c b) = earlies (waysN c) ++ (walksOf b).map (.label 0 :: ·) := by
          cases b <;> first | rfl | exact absurd ⟨_, rfl⟩ hb
        rw [this]
        simp only [List.mem_append, mem_earlies, List.mem_map, hb']
        constructor
        · rintro (⟨i, hi, rfl⟩ | ⟨w, hw, rfl⟩)
          · exact .switchEarly (ways_waysN c) hi
          · exact .switchBody (fun l hl => hb ⟨l, hl⟩) hw
        · intro h
          cases h with
          | plain h => exact absurd (.switchS a c _) h
          | switchEarly h1 h2 => rw [ways_iff.1 h1] at h2; exact .inl ⟨_, h2, rfl⟩
          | switchSection h1 h2 => exact absurd ⟨_, rfl⟩ hb
          | switchBody _ h => exact .inr ⟨_, h, rfl⟩
    | caseS v s =>
      rw [walksOf, kid s (by simp [Stmt.kids])]
      exact ⟨.caseSub, fun h => by
        cases h with | plain h => exact absurd (.caseS v s) h | caseSub h => exact h⟩
    | defaultS s =>
      rw [walksOf, kid s (by simp [Stmt.kids])]
      exact ⟨.defaultSub, fun h => by
        cases h with | plain h => exact absurd (.defaultS s) h | defaultSub h => exact h⟩
    | _ =>
      simp only [walksOf, List.mem_singleton]
      constructor
      · rintro rfl
        exact .plain (fun h => by cases h)
      · intro h
        cases h
        rfl

/-! ## The walks are pairwise different -/

/-- No repetition, and no walk is a proper beginning of another. -/
def Code (l : List (List Choice)) : Prop := l.Nodup ∧ ∀ u ∈ l, ∀ v ∈ l, u <+: v → u = v

theorem code_single (w : List Choice) : Code [w] := by
  refine ⟨by simp, ?_⟩
  intro u hu v hv _
  simp at hu hv
  rw [hu, hv]

theorem code_map {l : List (List Choice)} (h : Code l) (c : Choice) : Code (l.map (c :: ·)) := by
  refine ⟨h.1.map (fun a b hab => (List.cons.inj hab).2), ?_⟩
  intro u hu v hv huv
  obtain ⟨u, hu', rfl⟩ := List.mem_map.1 hu
  obtain ⟨v, hv', rfl⟩ := List.mem_map.1 hv
  rw [h.2 u hu' v hv' (List.cons_prefix_cons.1 huv).2]

/-- Walks of both lists are not empty and start with different choices. -/
def Apart (a b : List (List Choice)) : Prop :=
  ∀ u ∈ a, ∀ v ∈ b, ∃ c d u' v', u = c :: u' ∧ v = d :: v' ∧ c ≠ d

theorem code_append {a b : List (List Choice)} (ha : Code a) (hb : Code b) (hab : Apart a b) :
    Code (a ++ b) := by
  have no : ∀ {c d : Choice} {u v : List Choice}, c ≠ d → ¬ (c :: u <+: d :: v) :=
    fun h h' => h (List.cons_prefix_cons.1 h').1
  refine ⟨List.nodup_append.2 ⟨ha.1, hb.1, ?_⟩, ?_⟩
  · intro u hu v hv huv
    obtain ⟨c, d, u', v', rfl, rfl, hcd⟩ := hab u hu v hv
    exact hcd (List.cons.inj huv).1
  · intro u hu v hv huv
    rcases List.mem_append.1 hu with hu | hu <;> rcases List.mem_append.1 hv with hv | hv
    · exact ha.2 u hu v hv huv
    · obtain ⟨c, d, u', v', rfl, rfl, hcd⟩ := hab u hu v hv
      exact absurd huv (no hcd)
    · obtain ⟨c, d, u', v', rfl, rfl, hcd⟩ := hab v hv u hu
      exact absurd huv (no hcd.symm)
    · exact hb.2 u hu v hv huv

theorem prefix_comparable {u1 v1 u2 v2 : List Choice} (h : u1 ++ v1 <+: u2 ++ v2) :
    u1 <+: u2 ∨ u2 <+: u1 := by
  have h1 : u1 <+: u2 ++ v2 := (List.prefix_append u1 v1).trans h
  have h2 : u2 <+: u2 ++ v2 := List.prefix_append u2 v2
  exact List.prefix_or_prefix_of_prefix h1 h2

theorem code_product {a b : List (List Choice)} (ha : Code a) (hb : Code b) :
    Code (product a b) := by
  have key : ∀ u1 ∈ a, ∀ u2 ∈ a, ∀ v1 v2, u1 ++ v1 <+: u2 ++ v2 → u1 = u2 := by
    intro u1 h1 u2 h2 v1 v2 h
    rcases prefix_comparable h with h | h
    · exact ha.2 u1 h1 u2 h2 h
    · exact (ha.2 u2 h2 u1 h1 h).symm
  refine ⟨?_, ?_⟩
  · unfold product
    rw [List.nodup_flatMap]
    refine ⟨fun u _ => hb.1.map (fun x y h => List.append_cancel_left h), ?_⟩
    refine List.Pairwise.imp_of_mem ?_ ha.1
    intro u1 u2 h1 h2 hne w hw1 hw2
    obtain ⟨v1, _, rfl⟩ := List.mem_map.1 hw1
    obtain ⟨v2, _, h⟩ := List.mem_map.1 hw2
    exact hne (key u1 h1 u2 h2 v1 v2 (by rw [h]; exact List.prefix_refl _))
  · intro w1 hw1 w2 hw2 h
    obtain ⟨u1, hu1, v1, hv1, rfl⟩ := mem_product.1 hw1
    obtain ⟨u2, hu2, v2, hv2, rfl⟩ := mem_product.1 hw2
    have := key u1 hu1 u2 hu2 v1 v2 h
    subst this
    rw [hb.2 v1 hv1 v2 hv2 ((List.prefix_append_right_inj u1).1 h)]

theorem code_range (n : Nat) (f : Nat → Choice) (hf : ∀ i j, f i = f j → i = j) :
    Code ((List.range n).map fun i => [f i]) := by
  refine ⟨List.nodup_range.map (fun i j h => hf i j (List.cons.inj h).1), ?_⟩
  intro u hu v hv huv
  obtain ⟨i, _, rfl⟩ := List.mem_map.1 hu
  obtain ⟨j, _, rfl⟩ := List.mem_map.1 hv
  rw [(List.cons_prefix_cons.1 huv).1]

theorem code_earlies (n : Nat) : Code (earlies n) :=
  code_range n .early fun _ _ h => Choice.early.inj h

theorem code_walksSeq {l : List Stmt} (ih : ∀ k ∈ l, Code (walksOf k)) : Code (walksSeq l) := by
  induction l with
  | nil => exact code_single []
  | cons s r ihl =>
    exact code_product (ih s List.mem_cons_self) (ihl fun k hk => ih k (List.mem_cons_of_mem _ hk))

theorem code_walksHead {l : List Stmt} (ih : ∀ k ∈ l, Code (walksOf k)) : Code (walksHead l) := by
  induction l with
  | nil => exact code_single []
  | cons s r ihl =>
    rw [walksHead]
    split
    · exact code_single []
    · exact code_product (ih s List.mem_cons_self)
        (ihl fun k hk => ih k (List.mem_cons_of_mem _ hk))

theorem walksSections_label {l : List Stmt} {i : Nat} {w : List Choice}
    (h : w ∈ walksSections i l) : ∃ j v, i ≤ j ∧ w = .label j :: v := by
  induction l generalizing i with
  | nil => simp [walksSections] at h
  | cons s r ih =>
    rw [walksSections] at h
    split at h
    · rcases List.mem_append.1 h with h | h
      · obtain ⟨v, _, rfl⟩ := List.mem_map.1 h
        exact ⟨i, v, Nat.le_refl _, rfl⟩
      · obtain ⟨j, v, hj, rfl⟩ := ih h
        exact ⟨j, v, by omega, rfl⟩
    · exact ih h

theorem code_walksSections {l : List Stmt} (ih : ∀ k ∈ l, Code (walksOf k)) (i : Nat) :
    Code (walksSections i l) := by
  induction l generalizing i with
  | nil => exact ⟨by simp [walksSections], by simp [walksSections]⟩
  | cons s r ihl =>
    have hr := fun i => ihl (fun k hk => ih k (List.mem_cons_of_mem _ hk)) i
    rw [walksSections]
    split
    · refine code_append (code_map (code_product (ih s List.mem_cons_self)
        (code_walksHead fun k hk => ih k (List.mem_cons_of_mem _ hk))) _) (hr _) ?_
      intro u hu v hv
      obtain ⟨u', _, rfl⟩ := List.mem_map.1 hu
      obtain ⟨j, v', hj, rfl⟩ := walksSections_label hv
      refine ⟨_, _, _, _, rfl, rfl, ?_⟩
      intro h
      have := Choice.label.inj h
      omega
    · exact hr _

theorem apart_of {a b : List (List Choice)} {P Q : Choice → Prop}
    (ha : ∀ u ∈ a, ∃ c u', u = c :: u' ∧ P c) (hb : ∀ u ∈ b, ∃ c u', u = c :: u' ∧ Q c)
    (hPQ : ∀ c, P c → ¬ Q c) : Apart a b := by
  intro u hu v hv
  obtain ⟨c, u', rfl, hc⟩ := ha u hu
  obtain ⟨d, v', rfl, hd⟩ := hb v hv
  exact ⟨c, d, u', v', rfl, rfl, fun h => hPQ c hc (h ▸ hd)⟩

theorem heads_map {l : List (List Choice)} {c : Choice} {P : Choice → Prop} (h : P c) :
    ∀ u ∈ l.map (c :: ·), ∃ d u', u = d :: u' ∧ P d := by
  intro u hu
  obtain ⟨v, _, rfl⟩ := List.mem_map.1 hu
  exact ⟨c, v, rfl, h⟩

theorem heads_earlies (n : Nat) : ∀ u ∈ earlies n, ∃ c u', u = c :: u' ∧ ∃ i, c = .early i := by
  intro u hu
  obtain ⟨i, _, rfl⟩ := mem_earlies.1 hu
  exact ⟨_, _, rfl, i, rfl⟩

theorem heads_append {a b : List (List Choice)} {P : Choice → Prop}
    (ha : ∀ u ∈ a, ∃ c u', u = c :: u' ∧ P c) (hb : ∀ u ∈ b, ∃ c u', u = c :: u' ∧ P c) :
    ∀ u ∈ a ++ b, ∃ c u', u = c :: u' ∧ P c := by
  intro u hu
  rcases List.mem_append.1 hu with h | h
  · exact ha u h
  · exact hb u h

theorem heads_single {c : Choice} {P : Choice → Prop} (h : P c) :
    ∀ u ∈ [[c]], ∃ d u', u = d :: u' ∧ P d := by
  intro u hu
  simp at hu
  exact ⟨c, [], hu, h⟩

/-- The walks through a statement are pairwise different. -/
theorem code_walksOf (s : Stmt) : Code (walksOf s) := by
  induction s using Stmt.sizeInd with
  | ih s ih =>
    have kid : ∀ k ∈ s.kids, Code (walksOf k) := fun k hk => ih k (sizeOf_sub hk)
    cases s with
    | compound b => exact code_walksSeq (l := b) kid
    | ifS p c t e =>
      have he : Code (walksO e) := by
        cases e with
        | none => exact code_single []
        | some e => exact kid e (by simp [Stmt.kids])
      rw [walksOf]
      refine code_append (code_earlies _) (code_append (code_map (kid t (by simp [Stmt.kids])) _)
        (code_map he _) ?_) ?_
      · exact apart_of (heads_map (P := (· = .yes)) rfl) (heads_map (P := (· = .no)) rfl)
          (by rintro c rfl h; cases h)
      · exact apart_of (heads_earlies _)
          (heads_append (P := fun c => c = .yes ∨ c = .no) (heads_map (.inl rfl))
            (heads_map (.inr rfl)))
          (by rintro c ⟨i, rfl⟩ (h | h) <;> cases h)
    | whileS c b | doS b c =>
      rw [walksOf]
      refine code_append (code_earlies _) (code_append (code_map (kid b (by simp [Stmt.kids])) _)
        (code_single _) ?_) ?_
      · exact apart_of (heads_map (P := (· = .yes)) rfl) (heads_single (P := (· = .no)) rfl)
          (by rintro c rfl h; cases h)
      · exact apart_of (heads_earlies _)
          (heads_append (P := fun c => c = .yes ∨ c = .no) (heads_map (.inl rfl))
            (heads_single (.inr rfl)))
          (by rintro c ⟨i, rfl⟩ (h | h) <;> cases h)
    | forS i c n b =>
      have hi : Code (walksO i) := by
        cases i with
        | none => exact code_single []
        | some e => exact kid e (by simp [Stmt.kids])
      rw [walksOf]
      have h1 := code_append (code_map (kid b (by simp [Stmt.kids])) .yes) (code_single [.no])
        (apart_of (heads_map (P := (· = .yes)) rfl) (heads_single (P := (· = .no)) rfl)
          (by rintro c rfl h; cases h))
      have hd1 := heads_append (P := fun c => c = .yes ∨ c = .no)
        (heads_map (l := walksOf b) (c := .yes) (.inl rfl)) (heads_single (c := .no) (.inr rfl))
      have hincr : ∀ u ∈ (List.range (n.elim 0 waysN)).map (fun i => [Choice.incr i]),
          ∃ c u', u = c :: u' ∧ ∃ i, c = .incr i := by
        intro u hu
        obtain ⟨i, _, rfl⟩ := List.mem_map.1 hu
        exact ⟨_, _, rfl, i, rfl⟩
      have h2 := code_append (code_range (n.elim 0 waysN) .incr fun _ _ h => Choice.incr.inj h) h1
        (apart_of hincr hd1 (by rintro c ⟨i, rfl⟩ (h | h) <;> cases h))
      have hd2 := heads_append (P := fun c => (∃ i, c = .incr i) ∨ c = .yes ∨ c = .no)
        (fun u hu => by obtain ⟨c, u', e, h⟩ := hincr u hu; exact ⟨c, u', e, .inl h⟩)
        (fun u hu => by obtain ⟨c, u', e, h⟩ := hd1 u hu; exact ⟨c, u', e, .inr h⟩)
      have h3 := code_append (code_earlies (c.elim 0 waysN)) h2
        (apart_of (heads_earlies _) hd2 (by rintro c ⟨i, rfl⟩ (⟨j, h⟩ | h | h) <;> cases h))
      have hd3 := heads_append
        (P := fun c => (∃ i, c = .early i) ∨ (∃ i, c = .incr i) ∨ c = .yes ∨ c = .no)
        (fun u hu => by
          obtain ⟨c', u', e, h⟩ := heads_earlies (c.elim 0 waysN) u hu; exact ⟨c', u', e, .inl h⟩)
        (fun u hu => by obtain ⟨c, u', e, h⟩ := hd2 u hu; exact ⟨c, u', e, .inr h⟩)
      exact code_append (code_map hi .init) h3
        (apart_of (heads_map (P := (· = .init)) rfl) hd3
          (by rintro c rfl (⟨j, h⟩ | ⟨j, h⟩ | h | h) <;> cases h))
    | forIn e c b =>
      rw [walksOf]
      have h0 : Code [[Choice.no], [Choice.init]] :=
        code_append (code_single [.no]) (code_single [.init])
          (apart_of (heads_single (P := (· = .no)) rfl) (heads_single (P := (· = .init)) rfl)
            (by rintro c rfl h; cases h))
      refine code_append (code_map (kid b (by simp [Stmt.kids])) _) h0 ?_
      exact apart_of (heads_map (P := (· = .yes)) rfl)
        (heads_append (P := fun c => c = .no ∨ c = .init) (heads_single (.inl rfl))
          (heads_single (.inr rfl)))
        (by rintro c rfl (h | h) <;> cases h)
    | switchS a c b =>
      by_cases hb : ∃ l, b = .compound l
      · obtain ⟨l, rfl⟩ := hb
        have hl : ∀ k ∈ l, Code (walksOf k) := fun k hk => ih k (by
          have h1 : sizeOf k < sizeOf (Stmt.compound l) := sizeOf_sub (by simpa [Stmt.kids] using hk)
          have h2 : sizeOf (Stmt.compound l) < sizeOf (Stmt.switchS a c (.compound l)) :=
            sizeOf_sub (by simp [Stmt.kids])
          omega)
        rw [walksOf]
        refine code_append (code_earlies _) (code_walksSections hl 0) ?_
        exact apart_of (heads_earlies _) (Q := fun c => ∃ j, c = .label j)
          (fun u hu => by
            obtain ⟨j, v, _, rfl⟩ := walksSections_label hu
            exact ⟨_, _, rfl, j, rfl⟩)
          (by rintro c ⟨i, rfl⟩ ⟨j, h⟩; cases h)
      · have : walksOf (.switchS a c b) = earlies (waysN c) ++ (walksOf b).map (.label 0 :: ·) := by
          cases b <;> first | rfl | exact absurd ⟨_, rfl⟩ hb
        rw [this]
        refine code_append (code_earlies _) (code_map (kid b (by simp [Stmt.kids])) _) ?_
        exact apart_of (heads_earlies _) (heads_map (P := (· = .label 0)) rfl)
          (by rintro c ⟨i, rfl⟩ h; cases h)
    | caseS v s => exact kid s (by simp [Stmt.kids])
    | defaultS s => exact kid s (by simp [Stmt.kids])
    | _ => exact code_single []

/-! ## Their number is what the metric computes -/

/-- Either the computation overflows or it gives `n`. -/
def Res (x : Outcome Int) (n : Nat) : Prop := x = .ub ∨ (x = .ok (n : Int) ∧ n ≤ intMax)

theorem res_fit (n : Nat) : Res (fit n) n := by
  unfold fit
  split
  · exact .inr ⟨rfl, by assumption⟩
  · exact .inl rfl

theorem res_bind {x : Outcome Int} {a c : Nat} {f : Int → Outcome Int} (h : Res x a)
    (hf : Res (f (a : Int)) c) : Res (x >>= f) c := by
  rcases h with rfl | ⟨rfl, _⟩
  · exact .inl rfl
  · exact hf

theorem mulInt_nat (a b : Nat) : mulInt (a : Int) (b : Int) = fit (a * b) := by
  unfold mulInt; rw [← Int.natCast_mul, checkInt32_natCast]

theorem res_compound {l : List Stmt} (ih : ∀ k ∈ l, Res (nPathStmt k) (walksOf k).length) (c : Nat) :
    c ≤ intMax → Res (nPathCompound (c : Int) l) (c * (walksSeq l).length) := by
  induction l generalizing c with
  | nil =>
    intro hc
    simp only [nPathCompound, walksSeq, List.length_cons, List.length_nil, Nat.zero_add, Nat.mul_one]
    exact .inr ⟨rfl, hc⟩
  | cons s r ihl =>
    intro hc
    simp only [nPathCompound, walksSeq, length_product]
    refine res_bind (ih s List.mem_cons_self) ?_
    rw [mulInt_nat]
    by_cases h : c * (walksOf s).length ≤ intMax
    · rw [fit_of_le h, Outcome.bind_ok, ← Nat.mul_assoc]
      exact ihl (fun k hk => ih k (List.mem_cons_of_mem _ hk)) _ h
    · rw [show fit (c * (walksOf s).length) = .ub from if_neg h]
      exact .inl rfl

theorem res_switch {l : List Stmt} (ih : ∀ k ∈ l, Res (nPathStmt k) (walksOf k).length)
    (j i t : Nat) :
    Res (nPathSwitch (i : Int) (t : Int) l)
      (t + (i * (walksHead l).length + (walksSections j l).length)) := by
  induction l generalizing i t j with
  | nil =>
    simp only [nPathSwitch, walksHead, walksSections, List.length_cons, List.length_nil,
      Nat.zero_add, Nat.mul_one, Nat.add_zero, addInt_nat]
    exact res_fit _
  | cons s r ihl =>
    have hs := ih s List.mem_cons_self
    have hr := fun j i t => ihl (fun k hk => ih k (List.mem_cons_of_mem _ hk)) j i t
    simp only [nPathSwitch, walksHead, walksSections]
    by_cases h : isSwitchCase s = true
    · simp only [if_pos h, addInt_nat, List.length_append, List.length_map, length_product,
        List.length_cons, List.length_nil, Nat.zero_add, Nat.mul_one]
      refine res_bind (res_fit _) (res_bind hs ?_)
      have := hr (j + 1) (walksOf s).length (t + i)
      rwa [Nat.add_assoc] at this
    · simp only [if_neg h, length_product]
      refine res_bind hs ?_
      rw [mulInt_nat]
      refine res_bind (res_fit _) ?_
      have := hr j (i * (walksOf s).length) t
      rwa [Nat.mul_assoc] at this

theorem length_earlies (n : Nat) : (earlies n).length = n := by simp [earlies]

/-- Symbolic execution keeping track of the exact value. -/
macro "res_steps" : tactic => `(tactic|
  (repeat' first
     | exact res_fit _
     | (simp only [addInt_one, one_addInt, addInt_two, two_addInt, addInt_nat]; exact res_fit _)
     | refine res_bind (res_fit _) ?_))

theorem res_eq {x : Outcome Int} {m n : Nat} (h : Res x m) (e : m = n) : Res x n := e ▸ h

theorem nPathExprO_eq (o : Option Stmt) : nPathExprO o = fit (o.elim 0 waysN) := by
  cases o with
  | none => rfl
  | some e => exact nPathExpr_eq e

theorem addInt_bind {f : Int → Outcome Int} {a b : Nat} {c : Nat}
    (h : Res (f ((a + b : Nat) : Int)) c) : Res (addInt (a : Int) (b : Int) >>= f) c := by
  rw [addInt_nat]; exact res_bind (res_fit _) h

/-- Whatever the statement: if the computation does not overflow, it gives the number of walks. -/
theorem nPath_res (s : Stmt) : Res (nPathStmt s) (walksOf s).length := by
  induction s using Stmt.sizeInd with
  | ih s ih =>
    have kid : ∀ k ∈ s.kids, Res (nPathStmt k) (walksOf k).length := fun k hk => ih k (sizeOf_sub hk)
    have opt : ∀ {o : Option Stmt}, (∀ k ∈ o.toList, k ∈ s.kids) →
        Res (nPathStmtO o) (walksO o).length := by
      intro o ho
      cases o with
      | none => exact .inr ⟨rfl, one_le_intMax⟩
      | some k => exact kid k (ho k (by simp))
    cases s with
    | compound b =>
      have := res_compound (l := b) kid 1 one_le_intMax
      rw [Nat.one_mul] at this
      exact this
    | ifS p c t e =>
      simp only [nPathStmt, nPathExpr_eq, walksOf, List.length_append, List.length_map,
        length_earlies]
      refine res_bind (opt (by intro k hk; simp [Stmt.kids] at hk ⊢; simp [hk])) ?_
      refine res_bind (res_fit _) (res_bind (kid t (by simp [Stmt.kids])) ?_)
      refine addInt_bind ?_
      rw [addInt_nat]
      exact res_eq (res_fit _) (by omega)
    | whileS c b | doS b c =>
      simp only [nPathStmt, nPathExpr_eq, walksOf, List.length_append, List.length_map,
        length_earlies, List.length_cons, List.length_nil]
      refine res_bind (res_fit _) (res_bind (kid b (by simp [Stmt.kids])) (addInt_bind ?_))
      rw [addInt_one]
      exact res_eq (res_fit _) (by omega)
    | forS i c n b =>
      simp only [nPathStmt, nPathExprO_eq, walksOf, List.length_append, List.length_map,
        length_earlies, List.length_cons, List.length_nil, List.length_range]
      refine res_bind (opt (by intro k hk; simp [Stmt.kids] at hk ⊢; simp [hk])) ?_
      refine res_bind (res_fit _) (res_bind (res_fit _) (res_bind (kid b (by simp [Stmt.kids])) ?_))
      refine addInt_bind (addInt_bind (addInt_bind ?_))
      rw [addInt_one]
      exact res_eq (res_fit _) (by omega)
    | forIn e c b =>
      simp only [nPathStmt, walksOf, List.length_append, List.length_map, List.length_cons,
        List.length_nil]
      refine res_bind (kid b (by simp [Stmt.kids])) ?_
      rw [addInt_two]
      exact res_fit _
    | switchS a c b =>
      by_cases hb : ∃ l, b = .compound l
      · obtain ⟨l, rfl⟩ := hb
        have hl : ∀ k ∈ l, Res (nPathStmt k) (walksOf k).length := fun k hk => ih k (by
          have h1 : sizeOf k < sizeOf (Stmt.compound l) := sizeOf_sub (by simpa [Stmt.kids] using hk)
          have h2 : sizeOf (Stmt.compound l) < sizeOf (Stmt.switchS a c (.compound l)) :=
            sizeOf_sub (by simp [Stmt.kids])
          omega)
        simp only [nPathStmt, nPathExpr_eq, walksOf, List.length_append, length_earlies]
        refine res_bind (res_fit _) ?_
        have := res_switch hl 0 0 (waysN c)
        simpa using this
      · have h1 : walksOf (.switchS a c b) =
            earlies (waysN c) ++ (walksOf b).map (.label 0 :: ·) := by
          cases b <;> first | rfl | exact absurd ⟨_, rfl⟩ hb
        have h2 : nPathStmt (.switchS a c b) =
            (do let total ← nPathExpr c; let n ← nPathStmt b; addInt total n) := by
          cases b <;> first | rfl | exact absurd ⟨_, rfl⟩ hb
        rw [h1, h2]
        simp only [nPathExpr_eq, List.length_append, List.length_map, length_earlies]
        refine res_bind (res_fit _) (res_bind (kid b (by simp [Stmt.kids])) ?_)
        rw [addInt_nat]
        exact res_fit _
    | caseS v s => exact kid s (by simp [Stmt.kids])
    | defaultS s => exact kid s (by simp [Stmt.kids])
    | _ => exact .inr ⟨rfl, one_le_intMax⟩

/-! ## No overflow when the number itself fits, for well labelled bodies -/

/-- At least one walk, and no overflow if their number fits. -/
def Good (s : Stmt) : Prop :=
  1 ≤ (walksOf s).length ∧
    ((walksOf s).length ≤ intMax → nPathStmt s = .ok ((walksOf s).length : Int))

theorem good_seq_pos {l : List Stmt} (ih : ∀ k ∈ l, Good k) : 1 ≤ (walksSeq l).length := by
  induction l with
  | nil => simp [walksSeq]
  | cons s r ihl =>
    rw [walksSeq, length_product]
    exact Nat.mul_le_mul (ih s List.mem_cons_self).1
      (ihl fun k hk => ih k (List.mem_cons_of_mem _ hk))

theorem good_head_pos {l : List Stmt} (ih : ∀ k ∈ l, Good k) : 1 ≤ (walksHead l).length := by
  induction l with
  | nil => simp [walksHead]
  | cons s r ihl =>
    rw [walksHead]
    split
    · simp
    · rw [length_product]
      exact Nat.mul_le_mul (ih s List.mem_cons_self).1
        (ihl fun k hk => ih k (List.mem_cons_of_mem _ hk))

theorem le_mul_of_pos {a b c : Nat} (ha : 1 ≤ a) (hc : 1 ≤ c) : b ≤ a * b * c := by
  have h1 : 1 * b ≤ a * b := Nat.mul_le_mul ha (Nat.le_refl b)
  have h2 : a * b * 1 ≤ a * b * c := Nat.mul_le_mul (Nat.le_refl _) hc
  omega

theorem good_compound {l : List Stmt} (ih : ∀ k ∈ l, Good k) (c : Nat) (hc : 1 ≤ c)
    (h : c * (walksSeq l).length ≤ intMax) :
    nPathCompound (c : Int) l = .ok ((c * (walksSeq l).length : Nat) : Int) := by
  induction l generalizing c with
  | nil => simp [nPathCompound, walksSeq]
  | cons s r ihl =>
    have hr : ∀ k ∈ r, Good k := fun k hk => ih k (List.mem_cons_of_mem _ hk)
    have hrp := good_seq_pos hr
    obtain ⟨hs1, hs2⟩ := ih s List.mem_cons_self
    rw [walksSeq, length_product, ← Nat.mul_assoc] at h ⊢
    have h1 : (walksOf s).length ≤ intMax :=
      Nat.le_trans (le_mul_of_pos (b := (walksOf s).length) hc hrp) h
    have h2 : c * (walksOf s).length ≤ intMax := by
      have := Nat.mul_le_mul (Nat.le_refl (c * (walksOf s).length)) hrp
      omega
    rw [nPathCompound, hs2 h1, Outcome.bind_ok, mulInt_nat, fit_of_le h2, Outcome.bind_ok]
    exact ihl hr _ (Nat.mul_le_mul hc hs1) h

theorem good_switch {l : List Stmt} (ih : ∀ k ∈ l, Good k) (j i t : Nat)
    (hi : 1 ≤ i ∨ Labelled l)
    (h : t + (i * (walksHead l).length + (walksSections j l).length) ≤ intMax) :
    nPathSwitch (i : Int) (t : Int) l =
      .ok ((t + (i * (walksHead l).length + (walksSections j l).length) : Nat) : Int) := by
  induction l generalizing i t j with
  | nil =>
    simp only [walksHead, walksSections, List.length_cons, List.length_nil, Nat.zero_add,
      Nat.mul_one, Nat.add_zero] at h
    simp only [nPathSwitch, walksHead, walksSections, List.length_cons, List.length_nil,
      Nat.zero_add, Nat.mul_one, Nat.add_zero, addInt_nat, fit_of_le h]
  | cons s r ihl =>
    have hr : ∀ k ∈ r, Good k := fun k hk => ih k (List.mem_cons_of_mem _ hk)
    have hhp := good_head_pos hr
    obtain ⟨hs1, hs2⟩ := ih s List.mem_cons_self
    by_cases hl : isSwitchCase s = true
    · simp only [walksHead, walksSections, if_pos hl, List.length_append, List.length_map,
        length_product, List.length_cons, List.length_nil, Nat.zero_add, Nat.mul_one] at h ⊢
      have h1 : (walksOf s).length ≤ intMax := by
        have := Nat.mul_le_mul (Nat.le_refl (walksOf s).length) hhp
        omega
      simp only [nPathSwitch, if_pos hl, addInt_nat, fit_of_le (show t + i ≤ intMax by omega),
        Outcome.bind_ok, hs2 h1]
      have := ihl hr (j + 1) (walksOf s).length (t + i) (.inl hs1) (by omega)
      rw [this]
      congr 2
      omega
    · have hi1 : 1 ≤ i := by
        rcases hi with hi | hi
        · exact hi
        · cases hi with
          | start h' => exact absurd ((isSwitchCase_iff s).2 h') hl
      simp only [walksHead, walksSections, if_neg hl, length_product, ← Nat.mul_assoc] at h ⊢
      have h1 : (walksOf s).length ≤ intMax := by
        have := le_mul_of_pos (b := (walksOf s).length) hi1 hhp
        omega
      have h2 : i * (walksOf s).length ≤ intMax := by
        have := Nat.mul_le_mul (Nat.le_refl (i * (walksOf s).length)) hhp
        omega
      simp only [nPathSwitch, if_neg hl, Outcome.bind_ok, hs2 h1, mulInt_nat, fit_of_le h2]
      exact ihl hr j _ t (.inl (Nat.mul_le_mul hi1 hs1)) h

theorem good_sections_pos {l : List Stmt} (ih : ∀ k ∈ l, Good k) (hl : Labelled l) (j : Nat) :
    1 ≤ (walksSections j l).length := by
  cases hl with
  | @start s r h =>
    rw [walksSections, if_pos ((isSwitchCase_iff s).2 h), List.length_append, List.length_map,
      length_product]
    have := Nat.mul_le_mul (ih s List.mem_cons_self).1
      (good_head_pos fun k hk => ih k (List.mem_cons_of_mem s hk))
    omega

theorem fit_ok {m n : Nat} (e : m = n) (h : n ≤ intMax) : fit m = .ok (n : Int) := by
  rw [e, fit_of_le h]

theorem good_of_len {s : Stmt} {n : Nat} (hlen : (walksOf s).length = n) (h1 : 1 ≤ n)
    (h : n ≤ intMax → nPathStmt s = .ok (n : Int)) : Good s := by
  subst hlen; exact ⟨h1, h⟩

theorem wellLabelled_part {s k : Stmt} (h : WellLabelled s) (hk : k ∈ parts s) :
    WellLabelled k := by
  cases h with | mk h1 _ _ => exact h1 k hk

theorem good_of_wellLabelled (s : Stmt) : WellLabelled s → Good s := by
  induction s using Stmt.sizeInd with
  | ih s ih =>
    intro hwl
    have part : ∀ k ∈ parts s, Good k := fun k hk =>
      ih k (sizeOf_sub (parts_kids s k hk)) (wellLabelled_part hwl hk)
    cases s with
    | compound b =>
      refine ⟨good_seq_pos (l := b) part, fun h => ?_⟩
      have := good_compound (l := b) part 1 (Nat.le_refl 1) (by rw [Nat.one_mul]; exact h)
      rw [Nat.one_mul] at this
      exact this
    | ifS p c t e =>
      obtain ⟨ht1, ht2⟩ := part t (by simp [parts])
      have he : 1 ≤ (walksO e).length ∧
          ((walksO e).length ≤ intMax → nPathStmtO e = .ok ((walksO e).length : Int)) := by
        cases e with
        | none => exact ⟨Nat.le_refl 1, fun _ => rfl⟩
        | some e => exact part e (by simp [parts])
      obtain ⟨he1, he2⟩ := he
      have hlen : (walksOf (.ifS p c t e)).length =
          waysN c + ((walksOf t).length + (walksO e).length) := by
        simp [walksOf, length_earlies]
      refine good_of_len hlen (by omega) fun h => ?_
      simp only [nPathStmt, he2 (by omega), ht2 (by omega), nPathExpr_eq,
        fit_of_le (show waysN c ≤ intMax by omega), bind_ok', addInt_nat,
        fit_of_le (show waysN c + (walksOf t).length ≤ intMax by omega)]
      rw [Nat.add_assoc, fit_of_le h]
    | whileS c b | doS b c =>
      obtain ⟨hb1, hb2⟩ := part b (by simp [parts])
      have hlen : ∀ s, s = Stmt.whileS c b ∨ s = Stmt.doS b c → (walksOf s).length =
          waysN c + ((walksOf b).length + 1) := by
        rintro s (rfl | rfl) <;> simp [walksOf, length_earlies]
      refine good_of_len (hlen _ (by simp)) (by omega) fun h => ?_
      simp only [nPathStmt, hb2 (by omega), nPathExpr_eq,
        fit_of_le (show waysN c ≤ intMax by omega), bind_ok', addInt_nat, addInt_one,
        fit_of_le (show waysN c + (walksOf b).length ≤ intMax by omega)]
      rw [Nat.add_assoc, fit_of_le h]
    | forS i c n b =>
      obtain ⟨hb1, hb2⟩ := part b (by simp [parts])
      have hi : 1 ≤ (walksO i).length ∧
          ((walksO i).length ≤ intMax → nPathStmtO i = .ok ((walksO i).length : Int)) := by
        cases i with
        | none => exact ⟨Nat.le_refl 1, fun _ => rfl⟩
        | some i =>
          cases hwl with
          | mk _ _ h => exact ih i (sizeOf_sub (by simp [Stmt.kids])) (h i c n b rfl)
      obtain ⟨hi1, hi2⟩ := hi
      generalize hc : c.elim 0 waysN = x at *
      generalize hn : n.elim 0 waysN = y at *
      have hlen : (walksOf (.forS i c n b)).length =
          (walksO i).length + (x + (y + ((walksOf b).length + 1))) := by
        simp [walksOf, length_earlies, hc, hn]
      refine good_of_len hlen (by omega) fun h => ?_
      simp only [nPathStmt, hi2 (by omega), hb2 (by omega), nPathExprO_eq, hc, hn,
        fit_of_le (show x ≤ intMax by omega), fit_of_le (show y ≤ intMax by omega), bind_ok',
        addInt_nat, fit_of_le (show (walksO i).length + x ≤ intMax by omega),
        fit_of_le (show (walksO i).length + x + y ≤ intMax by omega),
        fit_of_le (show (walksO i).length + x + y + (walksOf b).length ≤ intMax by omega),
        addInt_one, fit_of_le (show (walksO i).length + x + y + (walksOf b).length + 1 ≤ intMax by omega)]
      congr 2
      omega
    | forIn e c b =>
      obtain ⟨hb1, hb2⟩ := part b (by simp [parts])
      have hlen : (walksOf (.forIn e c b)).length = (walksOf b).length + 2 := by simp [walksOf]
      refine good_of_len hlen (by omega) fun h => ?_
      simp only [nPathStmt, hb2 (Nat.le_trans (Nat.le_add_right _ 2) h), bind_ok', addInt_two]
      exact fit_ok rfl h
    | switchS a c b =>
      by_cases hb : ∃ l, b = .compound l
      · obtain ⟨l, rfl⟩ := hb
        have hlab : Labelled l := by cases hwl with | mk _ h _ => exact h a c l rfl
        have hbw : WellLabelled (.compound l) := wellLabelled_part hwl (by simp [parts])
        have hl : ∀ k ∈ l, Good k := fun k hk => ih k (by
          have h1 : sizeOf k < sizeOf (Stmt.compound l) := sizeOf_sub (by simpa [Stmt.kids] using hk)
          have h2 : sizeOf (Stmt.compound l) < sizeOf (Stmt.switchS a c (.compound l)) :=
            sizeOf_sub (by simp [Stmt.kids])
          omega) (wellLabelled_part hbw (by simpa [parts] using hk))
        have hlen : (walksOf (.switchS a c (.compound l))).length =
            waysN c + (walksSections 0 l).length := by simp [walksOf, length_earlies]
        have := good_sections_pos hl hlab 0
        refine good_of_len hlen (by omega) fun h => ?_
        simp only [nPathStmt, nPathExpr_eq, fit_of_le (show waysN c ≤ intMax by omega),
          bind_ok']
        have := good_switch hl 0 0 (waysN c) (.inr hlab) (by simpa using h)
        simpa using this
      · have h1 : walksOf (.switchS a c b) =
            earlies (waysN c) ++ (walksOf b).map (.label 0 :: ·) := by
          cases b <;> first | rfl | exact absurd ⟨_, rfl⟩ hb
        have h2 : nPathStmt (.switchS a c b) =
            (do let total ← nPathExpr c; let n ← nPathStmt b; addInt total n) := by
          cases b <;> first | rfl | exact absurd ⟨_, rfl⟩ hb
        obtain ⟨hb1, hb2⟩ := part b (by simp [parts])
        have hlen : (walksOf (.switchS a c b)).length = waysN c + (walksOf b).length := by
          rw [h1]; simp [length_earlies]
        refine good_of_len hlen (by omega) fun h => ?_
        rw [h2]
        simp only [nPathExpr_eq, fit_of_le (show waysN c ≤ intMax by omega), bind_ok',
          hb2 (by omega), addInt_nat, fit_of_le h]
    | caseS v s => exact part s (by simp [parts])
    | defaultS s => exact part s (by simp [parts])
    | _ => exact ⟨Nat.le_refl 1, fun _ => rfl⟩

theorem good_seq_le {l : List Stmt} (ih : ∀ k ∈ l, Good k) {k : Stmt} (hk : k ∈ l) :
    (walksOf k).length ≤ (walksSeq l).length := by
  induction l with
  | nil => cases hk
  | cons s r ihl =>
    have hr : ∀ k ∈ r, Good k := fun k hk => ih k (List.mem_cons_of_mem _ hk)
    have hrp := good_seq_pos hr
    have hs := (ih s List.mem_cons_self).1
    rw [walksSeq, length_product]
    rcases List.mem_cons.1 hk with rfl | hk
    · have := Nat.mul_le_mul (Nat.le_refl (walksOf k).length) hrp
      omega
    · have h1 := ihl hr hk
      have := Nat.mul_le_mul hs h1
      omega

theorem good_sections_le {l : List Stmt} (ih : ∀ k ∈ l, Good k) {k : Stmt} (hk : k ∈ l) (j i : Nat)
    (hi : 1 ≤ i ∨ Labelled l) :
    (walksOf k).length ≤ i * (walksHead l).length + (walksSections j l).length := by
  induction l generalizing j i with
  | nil => cases hk
  | cons s r ihl =>
    have hr : ∀ k ∈ r, Good k := fun k hk => ih k (List.mem_cons_of_mem _ hk)
    have hhp := good_head_pos hr
    have hs := (ih s List.mem_cons_self).1
    by_cases hl : isSwitchCase s = true
    · simp only [walksHead, walksSections, if_pos hl, List.length_append, List.length_map,
        length_product, List.length_cons, List.length_nil, Nat.zero_add, Nat.mul_one]
      rcases List.mem_cons.1 hk with rfl | hk
      · have := Nat.mul_le_mul (Nat.le_refl (walksOf k).length) hhp
        omega
      · have := ihl hr hk (j + 1) (walksOf s).length (.inl hs)
        omega
    · have hi1 : 1 ≤ i := by
        rcases hi with hi | hi
        · exact hi
        · cases hi with
          | start h' => exact absurd ((isSwitchCase_iff s).2 h') hl
      simp only [walksHead, walksSections, if_neg hl, length_product]
      rcases List.mem_cons.1 hk with rfl | hk
      · have := le_mul_of_pos (b := (walksOf k).length) hi1 hhp
        rw [Nat.mul_assoc] at this
        omega
      · have := ihl hr hk j (i * (walksOf s).length) (.inl (Nat.mul_le_mul hi1 hs))
        rw [Nat.mul_assoc] at this
        exact this

theorem walksOf_length_le {s k : Stmt} (hs : WellLabelled s) (hk : Within k s) :
    (walksOf k).length ≤ (walksOf s).length := by
  have part : ∀ k ∈ parts s, Good k := fun k hk =>
    good_of_wellLabelled k (wellLabelled_part hs hk)
  cases hk with
  | part hb hk hns =>
    cases hb with
    | compound b => exact good_seq_le part hk
    | ifS p c t e =>
      cases e with
      | none => simp [parts] at hk; subst hk; simp [walksOf]; omega
      | some e =>
        simp [parts] at hk
        rcases hk with rfl | rfl <;> simp [walksOf, walksO] <;> omega
    | whileS c b | doS b c | forS i c n b | forIn e c b =>
      simp [parts] at hk; subst hk; simp [walksOf] <;> try omega
    | switchS a c b => exact absurd rfl (hns a c b)
    | caseS v s | defaultS s => simp [parts] at hk; subst hk; simp [walksOf]
  | @switchBody a c _ b hk =>
    have hlab : Labelled b := by cases hs with | mk _ h _ => exact h a c b rfl
    have hbw : WellLabelled (.compound b) := wellLabelled_part hs (by simp [parts])
    have := good_sections_le (fun k hk => good_of_wellLabelled k
      (wellLabelled_part hbw (by simpa [parts] using hk))) hk 0 0 (.inr hlab)
    simp [walksOf] at this ⊢
    omega
  | @switchLone a c _ h =>
    have h1 : walksOf (.switchS a c k) = earlies (waysN c) ++ (walksOf k).map (.label 0 :: ·) := by
      cases k <;> first | rfl | exact absurd rfl (h _)
    rw [h1]
    simp

end Oclint
