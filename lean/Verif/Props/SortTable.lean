import Verif.Spec.SortTable
import Verif.Lemmas.Metrics
import Mathlib.Tactic.SplitIfs

/-!
# C59: sorting the table of the HTML report
-/

namespace Oclint
open Spec

/-! ## The passes as a pure function -/

section
variable {α κ : Type} (key : α → κ) (before : κ → κ → Bool)

/-- Switch the first adjacent pair that is out of order. -/
def switchFirst : List α → Option (List α)
  | a :: b :: rest =>
    if before (key b) (key a) then some (b :: a :: rest)
    else (switchFirst (b :: rest)).map (a :: ·)
  | _ => none

/-- The number of later rows that have to come before `a`. -/
def laterBefore (a : α) (l : List α) : Nat := (l.filter fun b => before (key b) (key a)).length

/-- The number of pairs out of order. -/
def inversions : List α → Nat
  | [] => 0
  | a :: l => laterBefore key before a l + inversions l

theorem switchFirst_inversions (h : StrictWeak before) (l : List α) :
    ∀ l', switchFirst key before l = some l' → inversions key before l = inversions key before l' + 1 := by
  have perm : ∀ l l' : List α, switchFirst key before l = some l' →
      ∀ p : α → Bool, (l'.filter p).length = (l.filter p).length := by
    intro l
    induction l with
    | nil => intro l' hl; simp [switchFirst] at hl
    | cons a l ih =>
      intro l' hl p
      cases l with
      | nil => simp [switchFirst] at hl
      | cons b l =>
        rw [switchFirst] at hl
        split_ifs at hl with hc
        · cases hl
          simp only [List.filter_cons]
          split_ifs <;> simp
        · obtain ⟨m, hm, rfl⟩ := Option.map_eq_some_iff.1 hl
          have := ih m hm p
          simp only [List.filter_cons (x := a)]
          split_ifs <;> simp [this]
  induction l with
  | nil => intro l' hl; simp [switchFirst] at hl
  | cons a l ih =>
    intro l' hl
    cases l with
    | nil => simp [switchFirst] at hl
    | cons b l =>
      rw [switchFirst] at hl
      split_ifs at hl with hc
      · cases hl
        have hn := h.asymm _ _ hc
        simp only [inversions, laterBefore, List.filter_cons, hc, hn, if_true, List.length_cons]
        simp only [Bool.false_eq_true, if_false]
        omega
      · obtain ⟨m, hm, rfl⟩ := Option.map_eq_some_iff.1 hl
        have h1 := ih m hm
        have h2 := perm _ m hm (fun b => before (key b) (key a))
        rw [inversions, h1, inversions, laterBefore, laterBefore, h2]
        omega

theorem switchFirst_perm (l : List α) : ∀ l', switchFirst key before l = some l' → l'.Perm l := by
  induction l with
  | nil => intro l' hl; simp [switchFirst] at hl
  | cons a l ih =>
    intro l' hl
    cases l with
    | nil => simp [switchFirst] at hl
    | cons b l =>
      rw [switchFirst] at hl
      split_ifs at hl
      · cases hl; exact List.Perm.swap _ _ _
      · obtain ⟨m, hm, rfl⟩ := Option.map_eq_some_iff.1 hl
        exact (ih m hm).cons a

theorem switchFirst_stable (h : StrictWeak before) (k : κ) (l : List α) :
    ∀ l', switchFirst key before l = some l' →
      l'.filter (fun a => !before (key a) k && !before k (key a)) =
        l.filter (fun a => !before (key a) k && !before k (key a)) := by
  induction l with
  | nil => intro l' hl; simp [switchFirst] at hl
  | cons a l ih =>
    intro l' hl
    cases l with
    | nil => simp [switchFirst] at hl
    | cons b l =>
      rw [switchFirst] at hl
      split_ifs at hl with hc
      · cases hl
        simp only [List.filter_cons]
        by_cases ha : (!before (key a) k && !before k (key a)) = true
        · by_cases hb : (!before (key b) k && !before k (key b)) = true
          · simp only [Bool.and_eq_true, Bool.not_eq_true'] at ha hb
            have := h.negTrans _ _ _ hb.1 ha.2
            rw [this] at hc; cases hc
          · rw [if_neg hb, if_pos ha, if_neg hb, if_pos ha]
        · by_cases hb : (!before (key b) k && !before k (key b)) = true
          · rw [if_pos hb, if_neg ha, if_pos hb, if_neg ha]
          · rw [if_neg hb, if_neg ha, if_neg hb, if_neg ha]
      · obtain ⟨m, hm, rfl⟩ := Option.map_eq_some_iff.1 hl
        rw [List.filter_cons, List.filter_cons (xs := b :: l), ih m hm]

theorem switchFirst_none (h : StrictWeak before) (l : List α) :
    switchFirst key before l = none ↔ Ordered key before l := by
  unfold Ordered
  induction l with
  | nil => simp [switchFirst]
  | cons a l ih =>
    cases l with
    | nil => simp [switchFirst]
    | cons b l =>
      rw [switchFirst]
      constructor
      · intro hs
        split_ifs at hs with hc
        have hc : before (key b) (key a) = false := by simpa using hc
        have ho := ih.1 (Option.map_eq_none_iff.1 hs)
        refine List.pairwise_cons.2 ⟨?_, ho⟩
        intro c hm
        rcases List.mem_cons.1 hm with rfl | hm
        · exact hc
        · exact h.negTrans _ _ _ ((List.pairwise_cons.1 ho).1 c hm) hc
      · intro ho
        have ho' := List.pairwise_cons.1 ho
        rw [if_neg (by simp [ho'.1 b (by simp)]), ih.2 ho'.2]
        rfl

/-- Switch until nothing is out of order. -/
def switchAll : Nat → List α → Option (List α)
  | 0, _ => none
  | fuel + 1, l =>
    match switchFirst key before l with
    | some l' => switchAll fuel l'
    | none => some l

theorem switchAll_sorts (h : StrictWeak before) (n : Nat) :
    ∀ l, inversions key before l = n → ∀ fuel, n < fuel →
      ∃ l', switchAll key before fuel l = some l' ∧ StableSort key before l l' := by
  induction n with
  | zero =>
    intro l hl fuel hf
    obtain ⟨fuel, rfl⟩ : ∃ k, fuel = k + 1 := ⟨fuel - 1, by omega⟩
    rw [switchAll]
    cases hs : switchFirst key before l with
    | none => exact ⟨l, rfl, List.Perm.refl _, (switchFirst_none key before h l).1 hs, fun _ => rfl⟩
    | some l' => have := switchFirst_inversions key before h l l' hs; omega
  | succ n ih =>
    intro l hl fuel hf
    obtain ⟨fuel, rfl⟩ : ∃ k, fuel = k + 1 := ⟨fuel - 1, by omega⟩
    rw [switchAll]
    cases hs : switchFirst key before l with
    | none => exact ⟨l, rfl, List.Perm.refl _, (switchFirst_none key before h l).1 hs, fun _ => rfl⟩
    | some l' =>
      have hi := switchFirst_inversions key before h l l' hs
      obtain ⟨r, hr, hp, ho, hst⟩ := ih l' (by omega) fuel (by omega)
      refine ⟨r, hr, hp.trans (switchFirst_perm key before l l' hs), ho, fun k => ?_⟩
      rw [hst k, switchFirst_stable key before h k l l' hs]

theorem inversions_le (l : List α) : inversions key before l ≤ l.length * l.length := by
  induction l with
  | nil => simp [inversions]
  | cons a l ih =>
    have : laterBefore key before a l ≤ l.length := List.length_filter_le _ _
    rw [inversions, List.length_cons, Nat.add_mul, Nat.mul_add]
    omega

end

/-! ## The script -/

section
variable (lower : Str → Str) (lt : Str → Str → Bool)

/-- The text a row is sorted by. -/
def rowKey (n : Nat) (r : Row) : Str := lower (r.getD n [])

/-- Which of two texts has to come first. -/
def dirBefore : SortDir → Str → Str → Bool
  | .asc => lt
  | .desc => flipped lt

theorem dirBefore_strictWeak (h : StrictWeak lt) (d : SortDir) : StrictWeak (dirBefore lt d) := by
  cases d with
  | asc => exact h
  | desc => exact ⟨fun a b => h.asymm b a, fun a b c h1 h2 => h.negTrans c b a h2 h1⟩

theorem outOfOrder_eq (n : Nat) (d : SortDir) (a b : Row) (ha : n < a.length) (hb : n < b.length) :
    outOfOrder lower lt n d a b = .ok (dirBefore lt d (rowKey lower n b) (rowKey lower n a)) := by
  unfold outOfOrder rowKey
  rw [List.getElem?_eq_getElem ha, List.getElem?_eq_getElem hb]
  simp only [List.getD_eq_getElem?_getD, List.getElem?_eq_getElem ha, List.getElem?_eq_getElem hb,
    Option.getD_some]
  cases d <;> simp [dirBefore, flipped]

theorem sortPass_eq (n : Nat) (d : SortDir) (rows : List Row) (h : ∀ r ∈ rows, n < r.length) :
    sortPass lower lt n d rows = .ok (switchFirst (rowKey lower n) (dirBefore lt d) rows) := by
  induction rows with
  | nil => rfl
  | cons a rows ih =>
    cases rows with
    | nil => rfl
    | cons b rows =>
      rw [sortPass, switchFirst, outOfOrder_eq lower lt n d a b (h a (by simp)) (h b (by simp)), bind_ok',
        ih (fun r hr => h r (List.mem_cons_of_mem _ hr))]
      split_ifs
      · rfl
      · rw [bind_ok']
        cases switchFirst (rowKey lower n) (dirBefore lt d) (b :: rows) <;> rfl

theorem sortLoop_eq (n : Nat) (d : SortDir) (fuel : Nat) : ∀ (count : Nat) (rows : List Row),
    (∀ r ∈ rows, n < r.length) → (count ≠ 0 ∨ d = .desc) →
      sortLoop lower lt n fuel d count rows =
        .ok (switchAll (rowKey lower n) (dirBefore lt d) fuel rows) := by
  induction fuel with
  | zero => intro count rows _ _; rfl
  | succ fuel ih =>
    intro count rows h hc
    rw [sortLoop, switchAll, sortPass_eq lower lt n d rows h, bind_ok']
    cases hs : switchFirst (rowKey lower n) (dirBefore lt d) rows with
    | some rows' =>
      refine ih _ _ ?_ (.inl (by omega))
      intro r hr
      exact h r ((switchFirst_perm _ _ _ _ hs).mem_iff.1 hr)
    | none =>
      dsimp only
      rw [if_neg]
      · rfl
      · rintro ⟨h1, h2⟩
        rcases hc with hc | hc
        · exact hc h1
        · rw [h2] at hc; cases hc

/-- **C59.** For every table in which all rows have the column, and every strict weak order of
texts, a click ends (after at most as many rounds as the square of the number of rows, plus two) and
leaves the rows sorted: descending if they were ascending already, ascending otherwise; rows with
equal texts stay in order. -/
theorem C59_sort_table (h : StrictWeak lt) (n : Nat) (rows : List Row)
    (hn : ∀ r ∈ rows, n < r.length) (fuel : Nat) (hf : rows.length * rows.length + 2 ≤ fuel) :
    ∃ after, sortTable lower lt n fuel rows = .ok (some after) ∧
      (¬ Ordered (rowKey lower n) lt rows → StableSort (rowKey lower n) lt rows after) ∧
      (Ordered (rowKey lower n) lt rows → StableSort (rowKey lower n) (flipped lt) rows after) := by
  obtain ⟨fuel, rfl⟩ : ∃ k, fuel = k + 1 := ⟨fuel - 1, by omega⟩
  unfold sortTable
  rw [sortLoop, sortPass_eq lower lt n .asc rows hn, bind_ok']
  have hnone := switchFirst_none (rowKey lower n) lt h rows
  cases hs : switchFirst (rowKey lower n) (dirBefore lt .asc) rows with
  | none =>
    have ho := hnone.1 hs
    have hi := inversions_le (rowKey lower n) (dirBefore lt .desc) rows
    obtain ⟨r, hr, hsort⟩ := switchAll_sorts (rowKey lower n) (dirBefore lt .desc)
      (dirBefore_strictWeak lt h .desc) _ rows rfl fuel (by omega)
    dsimp only
    rw [if_pos ⟨rfl, rfl⟩, sortLoop_eq lower lt n .desc fuel 0 rows hn (.inr rfl), hr]
    exact ⟨r, rfl, fun hc => absurd ho hc, fun _ => hsort⟩
  | some rows' =>
    have hno : ¬ Ordered (rowKey lower n) lt rows := by
      intro hc
      have := hnone.2 hc
      have hs' : switchFirst (rowKey lower n) lt rows = some rows' := hs
      rw [this] at hs'; cases hs'
    have hi := inversions_le (rowKey lower n) lt rows
    have hd := switchFirst_inversions (rowKey lower n) lt h rows rows' hs
    have hp := switchFirst_perm (rowKey lower n) lt rows rows' hs
    obtain ⟨r, hr, h1, h2, h3⟩ := switchAll_sorts (rowKey lower n) lt h _ rows' rfl fuel (by omega)
    have hr' : switchAll (rowKey lower n) (dirBefore lt .asc) fuel rows' = some r := hr
    dsimp only
    rw [sortLoop_eq lower lt n .asc fuel 1 rows' (fun x hx => hn x (hp.mem_iff.1 hx))
      (.inl (by omega)), hr']
    refine ⟨r, rfl, fun _ => ⟨h1.trans hp, h2, fun k => ?_⟩, fun hc => absurd hc hno⟩
    rw [h3 k, switchFirst_stable (rowKey lower n) lt h k rows rows' hs]

/-- **C59.** A click on a table sorted ascending and then another one: descending, then ascending
again. -/
theorem C59_second_click (h : StrictWeak lt) (n : Nat) (rows : List Row)
    (hn : ∀ r ∈ rows, n < r.length) (ho : Ordered (rowKey lower n) lt rows)
    (hdiff : ∃ a ∈ rows, ∃ b ∈ rows, lt (rowKey lower n a) (rowKey lower n b) = true) (fuel : Nat)
    (hf : rows.length * rows.length + 2 ≤ fuel) :
    ∃ r1 r2, sortTable lower lt n fuel rows = .ok (some r1) ∧
      StableSort (rowKey lower n) (flipped lt) rows r1 ∧
      sortTable lower lt n fuel r1 = .ok (some r2) ∧ StableSort (rowKey lower n) lt r1 r2 := by
  obtain ⟨r1, e1, -, hs1⟩ := C59_sort_table lower lt h n rows hn fuel hf
  have s1 := hs1 ho
  have hl := s1.perm.length_eq
  obtain ⟨r2, e2, hs2, -⟩ := C59_sort_table lower lt h n r1
    (fun r hr => hn r (s1.perm.mem_iff.1 hr)) fuel (by rw [hl]; exact hf)
  refine ⟨r1, r2, e1, s1, e2, hs2 ?_⟩
  intro hc
  obtain ⟨a, ha, b, hb, hab⟩ := hdiff
  -- both orders at once: all keys are equivalent
  have both : ∀ l : List Row, Ordered (rowKey lower n) lt l → Ordered (rowKey lower n) (flipped lt) l →
      ∀ x ∈ l, ∀ y ∈ l, lt (rowKey lower n x) (rowKey lower n y) = false := by
    intro l
    induction l with
    | nil => intro _ _ x hx; cases hx
    | cons z l ih =>
      intro h1 h2 x hx y hy
      obtain ⟨p1, q1⟩ := List.pairwise_cons.1 h1
      obtain ⟨p2, q2⟩ := List.pairwise_cons.1 h2
      have irr : ∀ k, lt k k = false := by
        intro k
        cases hk : lt k k with
        | false => rfl
        | true => have := h.asymm k k hk; rw [hk] at this; cases this
      rcases List.mem_cons.1 hx with hx | hx <;> rcases List.mem_cons.1 hy with hy | hy
      · subst hx hy; exact irr _
      · rw [hx]; exact p2 y hy
      · rw [hy]; exact p1 x hx
      · exact ih q1 q2 x hx y hy
  have := both r1 hc s1.ordered a (s1.perm.mem_iff.2 ha) b (s1.perm.mem_iff.2 hb)
  rw [hab] at this
  cases this

theorem sortPass_throws (n : Nat) (d : SortDir) (a b : Row) (rest : List Row)
    (h : a.length ≤ n ∨ b.length ≤ n) :
    sortPass lower lt n d (a :: b :: rest) = .throws "TypeError".toList := by
  have e : outOfOrder lower lt n d a b = .throws "TypeError".toList := by
    unfold outOfOrder
    rcases h with h | h
    · rw [List.getElem?_eq_none h]
    · rw [List.getElem?_eq_none h]
      cases a[n]? <;> rfl
  rw [sortPass, e]
  rfl

/-- **C59.** Without the column in one of the first two rows the script stops with a `TypeError`. -/
theorem C59_missing_cell (n fuel : Nat) (a b : Row) (rest : List Row)
    (h : a.length ≤ n ∨ b.length ≤ n) :
    sortTable lower lt n (fuel + 1) (a :: b :: rest) = .throws "TypeError".toList := by
  unfold sortTable
  rw [sortLoop, sortPass_throws lower lt n .asc a b rest h]
  rfl

end

/-- Comparison of texts by character codes. -/
def textLt (a b : Str) : Bool :=
  match a, b with
  | _, [] => false
  | [], _ :: _ => true
  | c :: s, d :: t => if c = d then textLt s t else decide (c.toNat < d.toNat)

theorem textLt_strictWeak : StrictWeak textLt where
  asymm := by
    intro a
    induction a with
    | nil => intro b h; cases b <;> simp_all [textLt]
    | cons c s ih =>
      intro b h
      cases b with
      | nil => simp [textLt] at h
      | cons d t =>
        rw [textLt] at h ⊢
        split_ifs at h with hc
        · rw [if_pos hc.symm]; exact ih t h
        · rw [if_neg (fun e => hc e.symm)]
          simp only [decide_eq_true_eq] at h
          simp; omega
  negTrans := by
    have code : ∀ c d : Char, c.toNat = d.toNat → c = d := by
      intro c d h
      apply Char.ext
      exact UInt32.toNat_inj.1 h
    intro a
    induction a with
    | nil =>
      intro b c h1 h2
      cases b with
      | nil => exact h2
      | cons d t => simp [textLt] at h1
    | cons x s ih =>
      intro b c h1 h2
      cases c with
      | nil => simp [textLt]
      | cons z u =>
        cases b with
        | nil => simp [textLt] at h2
        | cons y t =>
          rw [textLt] at h1 h2 ⊢
          by_cases e1 : x = y
          · subst e1
            rw [if_pos rfl] at h1
            by_cases e2 : x = z
            · subst e2
              rw [if_pos rfl] at h2 ⊢
              exact ih t u h1 h2
            · rw [if_neg e2] at h2 ⊢
              exact h2
          · rw [if_neg e1] at h1
            simp only [decide_eq_false_iff_not] at h1
            by_cases e2 : y = z
            · subst e2
              rw [if_neg e1]
              simpa using h1
            · rw [if_neg e2] at h2
              simp only [decide_eq_false_iff_not] at h2
              have e3 : x ≠ z := by
                rintro rfl
                exact e1 (code x y (by omega))
              rw [if_neg e3]
              simp only [decide_eq_false_iff_not]
              omega

/-- The lines of a file are sorted as texts: line 10 comes before line 9. -/
theorem C59_location_witness :
    sortTable id textLt 0 6 [["a.m:9:1".toList], ["a.m:10:1".toList]] =
      .ok (some [["a.m:10:1".toList], ["a.m:9:1".toList]]) := by
  decide

example : sortTable id textLt 1 20
    [["x".toList, "b".toList], ["y".toList, "a".toList], ["z".toList, "b".toList]] =
      .ok (some [["y".toList, "a".toList], ["x".toList, "b".toList], ["z".toList, "b".toList]]) := by
  decide

example : sortTable id textLt 1 20
    [["y".toList, "a".toList], ["x".toList, "b".toList], ["z".toList, "b".toList]] =
      .ok (some [["x".toList, "b".toList], ["z".toList, "b".toList], ["y".toList, "a".toList]]) := by
  decide

end Oclint
