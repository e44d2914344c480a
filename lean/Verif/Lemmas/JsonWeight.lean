import Mathlib.Algebra.Order.Ring.Nat
import Verif.Lemmas.ReadJson

/-!
# How long a JSON text must be

Every character of a JSON text is part of at most one thing that is read from it.  A character that means
itself takes one character of text, any other at least two.
-/

namespace Oclint
open Spec

/-- The length of a text, where the characters have lengths. -/
def weigh (f : Char → Nat) (s : Str) : Nat := (s.map f).sum

mutual
  /-- The length of the shortest text of a value. -/
  def weight (f : Char → Nat) : Json → Nat
    | .num z => (decimalInt z).length
    | .str s => weigh f s + 2
    | .arr [] => 2
    | .arr (v :: l) => 1 + weightItems f (v :: l)
    | .obj [] => 2
    | .obj (m :: l) => 1 + weightMembers f (m :: l)
  /-- The values of an array, each with the comma or bracket after it. -/
  def weightItems (f : Char → Nat) : List Json → Nat
    | [] => 0
    | v :: l => weight f v + 1 + weightItems f l
  /-- The members of an object, each with the comma or brace after it. -/
  def weightMembers (f : Char → Nat) : List (Str × Json) → Nat
    | [] => 0
    | (k, v) :: l => weigh f k + 3 + weight f v + 1 + weightMembers f l
end

/-- The length of a character in a JSON string. -/
def jsonLength (c : Char) : Nat := if c = '"' ∨ c = '\\' ∨ c.toNat < 32 then 2 else 1

/-- The characters that were needed for what surrounds the place the reader is at. -/
def weightCtx : JCtx → Nat
  | .arr done => 1 + weightItems jsonLength done
  | .obj done => 1 + weightMembers jsonLength done
  | .member done k => 1 + weightMembers jsonLength done + weigh jsonLength k + 3

/-- The characters that were needed for what is being read. -/
def weightMode : JMode → Nat
  | .value => 0
  | .valueOrEnd => 0
  | .key => 0
  | .keyOrEnd => 0
  | .colon k => weigh jsonLength k + 2
  | .str _ acc => weigh jsonLength acc + 1
  | .esc _ acc => weigh jsonLength acc + 2
  | .uni _ acc hex => weigh jsonLength acc + 3 + hex.length
  | .num acc => acc.length
  | .after v => weight jsonLength v

/-- The characters that were needed to get to a state of the reader. -/
def weightState (st : JMode × List JCtx) : Nat := weightMode st.1 + (st.2.map weightCtx).sum

theorem weigh_append (f : Char → Nat) (s t : Str) : weigh f (s ++ t) = weigh f s + weigh f t := by
  simp [weigh]

theorem weigh_cons (f : Char → Nat) (c : Char) (s : Str) : weigh f (c :: s) = f c + weigh f s := by
  simp [weigh]

theorem weigh_reverse (f : Char → Nat) (s : Str) : weigh f s.reverse = weigh f s := by
  induction s with
  | nil => rfl
  | cons c s ih =>
    rw [List.reverse_cons, weigh_append, ih, weigh_cons]
    simp [weigh]
    omega

theorem weightItems_append (f : Char → Nat) (l : List Json) (v : Json) :
    weightItems f (l ++ [v]) = weightItems f l + weight f v + 1 := by
  induction l with
  | nil => simp [weightItems]
  | cons a l ih =>
    rw [List.cons_append, weightItems, weightItems, ih]
    omega

theorem weightMembers_append (f : Char → Nat) (l : List (Str × Json)) (k : Str) (v : Json) :
    weightMembers f (l ++ [(k, v)]) = weightMembers f l + weigh f k + weight f v + 4 := by
  induction l with
  | nil =>
    simp only [List.nil_append, weightMembers]
    omega
  | cons a l ih =>
    obtain ⟨k', v'⟩ := a
    rw [List.cons_append, weightMembers, weightMembers, ih]
    omega

theorem weight_arr (f : Char → Nat) (l : List Json) (v : Json) :
    weight f (.arr (l ++ [v])) = 1 + weightItems f (l ++ [v]) := by
  cases l <;> simp [weight]

theorem weight_obj (f : Char → Nat) (l : List (Str × Json)) (m : Str × Json) :
    weight f (.obj (l ++ [m])) = 1 + weightMembers f (l ++ [m]) := by
  cases l <;> simp [weight]

theorem jsonLength_le (c : Char) : jsonLength c ≤ 2 := by
  unfold jsonLength
  split <;> omega

theorem decimal_length_le (n : Nat) : ∀ k, n < 10 ^ (k + 1) → (decimal n).length ≤ k + 1 := by
  induction n using Nat.strongRecOn with
  | ind n ih =>
    intro k h
    rw [decimal]
    split
    · simp
    · rename_i h10
      cases k with
      | zero => simp at h; omega
      | succ k =>
        have hlt : n / 10 < 10 ^ (k + 1) := by
          rw [Nat.div_lt_iff_lt_mul (by omega)]
          rw [pow_succ] at h
          exact h
        have := ih (n / 10) (by omega) k hlt
        simp only [List.length_append, List.length_cons, List.length_nil]
        omega

theorem digits_lt (s : Str) (h : s.all Char.isDigit = true) : ∀ a,
    s.foldl (fun a c => a * 10 + (c.toNat - 48)) a < (a + 1) * 10 ^ s.length := by
  induction s with
  | nil => intro a; simp
  | cons c s ih =>
    intro a
    simp only [List.all_cons, Bool.and_eq_true] at h
    rw [List.foldl_cons]
    refine (ih h.2 _).trans_le ?_
    have hc : c.toNat - 48 ≤ 9 := by
      have := h.1
      simp only [Char.isDigit, Bool.and_eq_true, decide_eq_true_eq] at this
      have h2 := this.2
      have : c.toNat ≤ 57 := h2
      omega
    rw [List.length_cons, pow_succ, show (a + 1) * (10 ^ s.length * 10) = ((a + 1) * 10) * 10 ^ s.length by
      rw [Nat.mul_comm (10 ^ s.length) 10, Nat.mul_assoc]]
    exact Nat.mul_le_mul_right _ (by omega)

theorem readNat_length (s : Str) (n : Nat) (h : readNat s = some n) :
    (decimal n).length ≤ s.length := by
  unfold readNat at h
  split at h
  · rename_i hs
    have hlt := digits_lt s hs.2 0
    cases h
    obtain ⟨k, hk⟩ : ∃ k, s.length = k + 1 := by
      cases s with
      | nil => exact absurd rfl hs.1
      | cons c s => exact ⟨s.length, rfl⟩
    rw [hk] at hlt ⊢
    exact decimal_length_le _ _ (by simpa using hlt)
  · cases h

theorem readInt_length (t : Str) (z : Int) (h : readInt t = some z) :
    (decimalInt z).length ≤ t.length := by
  unfold readInt at h
  split at h
  · rename_i s
    cases hn : readNat s with
    | none =>
      rw [hn] at h
      cases h
    | some n =>
      rw [hn] at h
      have hz : -(n : Int) = z := Option.some.inj h
      subst hz
      have := readNat_length s n hn
      unfold decimalInt
      split
      · simp
        exact this
      · simp
        omega
  · cases hn : readNat t with
    | none =>
      rw [hn] at h
      cases h
    | some n =>
      rw [hn] at h
      have hz : (n : Int) = z := Option.some.inj h
      subst hz
      have := readNat_length t n hn
      unfold decimalInt
      rw [if_neg (by omega)]
      simpa using this

theorem jsonNumber_length (s : Str) (z : Int) (h : jsonNumber s = some z) :
    (decimalInt z).length ≤ s.length := by
  unfold jsonNumber at h
  split at h
  · cases h
  · cases h
  · exact readInt_length _ z h

theorem jsonAfter_weight (v : Json) (c : Char) (stack : List JCtx) (st : JMode × List JCtx)
    (h : jsonAfter v c stack = some st) :
    weightState st ≤ weight jsonLength v + (stack.map weightCtx).sum + 1 := by
  unfold jsonAfter at h
  split at h
  · cases h
    simp [weightState, weightMode]
  · split at h
    · cases h
    · split at h
      · cases h
        simp only [weightState, weightMode, List.map_cons, List.sum_cons, weightCtx, weightItems_append]
        omega
      · split at h
        · cases h
          simp only [weightState, weightMode, List.map_cons, List.sum_cons, weightCtx, weight_arr,
            weightItems_append]
          omega
        · cases h
    · split at h
      · cases h
        simp only [weightState, weightMode, List.map_cons, List.sum_cons, weightCtx,
          weightMembers_append]
        omega
      · split at h
        · cases h
          simp only [weightState, weightMode, List.map_cons, List.sum_cons, weightCtx, weight_obj,
            weightMembers_append]
          omega
        · cases h
    · cases h

theorem jsonBegin_weight (c : Char) (stack : List JCtx) (st : JMode × List JCtx)
    (h : jsonBegin c stack = some st) : weightState st ≤ (stack.map weightCtx).sum + 1 := by
  unfold jsonBegin at h
  split at h
  · cases h
    simp only [weightState, weightMode, weigh]
    simp
    omega
  · split at h
    · cases h
      simp only [weightState, weightMode, weightCtx, weightItems, List.map_cons, List.sum_cons]
      omega
    · split at h
      · cases h
        simp only [weightState, weightMode, weightCtx, weightMembers, List.map_cons, List.sum_cons]
        omega
      · split at h
        · cases h
          simp only [weightState, weightMode, List.length_cons, List.length_nil]
          omega
        · cases h

/-- A character of text pays for what is read from it. -/
theorem jsonStep_weight (c : Char) (st st' : JMode × List JCtx) (h : jsonStep c st = some st') :
    weightState st' ≤ weightState st + 1 := by
  obtain ⟨mode, stack⟩ := st
  cases mode with
  | value =>
    simp only [jsonStep] at h
    split at h
    · cases h
      omega
    · have := jsonBegin_weight c stack st' h
      simp only [weightState, weightMode] at this ⊢
      omega
  | valueOrEnd =>
    simp only [jsonStep] at h
    split at h
    · cases h
      omega
    · split at h
      · split at h
        · cases h
          simp only [weightState, weightMode, weight, List.map_cons, List.sum_cons, weightCtx]
          omega
        · cases h
      · have := jsonBegin_weight c stack st' h
        simp only [weightState, weightMode] at this ⊢
        omega
  | key =>
    simp only [jsonStep] at h
    split at h
    · cases h
      omega
    · split at h
      · cases h
        simp only [weightState, weightMode, weigh]
        simp
        omega
      · cases h
  | keyOrEnd =>
    simp only [jsonStep] at h
    split at h
    · cases h
      omega
    · split at h
      · split at h
        · cases h
          simp only [weightState, weightMode, weight, List.map_cons, List.sum_cons, weightCtx]
          omega
        · cases h
      · split at h
        · cases h
          simp only [weightState, weightMode, weigh]
          simp
          omega
        · cases h
  | colon k =>
    simp only [jsonStep] at h
    split at h
    · cases h
      omega
    · split at h
      · split at h
        · cases h
          simp only [weightState, weightMode, List.map_cons, List.sum_cons, weightCtx]
          omega
        · cases h
      · cases h
  | str isKey acc =>
    simp only [jsonStep] at h
    split at h
    · cases h
      unfold jsonStringEnd
      cases isKey
      · simp only [weightState, weightMode, weight, weigh_reverse, Bool.false_eq_true, if_false]
        omega
      · simp only [weightState, weightMode, weigh_reverse, if_true]
        omega
    · split at h
      · cases h
        simp only [weightState, weightMode]
        omega
      · split at h
        · cases h
        · rename_i h1 h2 h3
          cases h
          have : jsonLength c = 1 := by
            unfold jsonLength
            rw [if_neg]
            rintro (e | e | e)
            · exact h1 e
            · exact h2 e
            · exact h3 e
          simp only [weightState, weightMode, weigh_cons, this]
          omega
  | esc isKey acc =>
    simp only [jsonStep] at h
    split at h
    · cases h
      simp only [weightState, weightMode, List.length_nil]
      omega
    · obtain ⟨d, -, rfl⟩ := Option.map_eq_some_iff.1 h
      have := jsonLength_le d
      simp only [weightState, weightMode, weigh_cons]
      omega
  | uni isKey acc hex =>
    simp only [jsonStep] at h
    split at h
    · obtain ⟨n, -, rfl⟩ := Option.map_eq_some_iff.1 h
      have := jsonLength_le (Char.ofNat n)
      simp only [weightState, weightMode, weigh_cons]
      omega
    · cases h
      simp only [weightState, weightMode, List.length_cons]
      omega
  | num acc =>
    simp only [jsonStep] at h
    split at h
    · cases h
      simp only [weightState, weightMode, List.length_cons]
      omega
    · split at h
      · cases h
      · rename_i z hz
        have h1 := jsonAfter_weight (.num z) c stack st' h
        have h2 := jsonNumber_length _ z hz
        rw [List.length_reverse] at h2
        simp only [weightState, weightMode, weight] at h1 ⊢
        omega
  | after v =>
    simp only [jsonStep] at h
    exact jsonAfter_weight v c stack st' h

theorem jsonRun_weight (s : Str) : ∀ st st', jsonRun st s = some st' →
    weightState st' ≤ weightState st + s.length := by
  induction s with
  | nil =>
    intro st st' h
    cases h
    simp
  | cons c s ih =>
    intro st st' h
    rw [jsonRun] at h
    obtain ⟨mid, h1, h2⟩ := Option.bind_eq_some_iff.1 h
    have := jsonStep_weight c st mid h1
    have := ih mid st' h2
    rw [List.length_cons]
    omega

end Oclint
