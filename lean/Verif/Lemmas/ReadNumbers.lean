import Verif.Spec.Reporters
import Verif.Lemmas.SourceLines
import Verif.Lemmas.Registry

/-! Reading back decimal numbers and delimited text. -/

namespace Oclint
open Spec

theorem digitChar_toNat (n : Nat) (h : n < 10) : (digitChar n).toNat = 48 + n := by
  have : ∀ n : Fin 10, (digitChar n).toNat = 48 + n := by decide
  exact this ⟨n, h⟩

theorem foldl_decimal (n : Nat) :
    ∀ a, (decimal n).foldl (fun a c => a * 10 + (c.toNat - 48)) a = a * 10 ^ (decimal n).length + n := by
  induction n using Nat.strongRecOn with
  | _ n ih =>
    intro a
    rw [decimal]
    split
    · next h => simp [digitChar_toNat n h]
    · next h =>
      rw [List.foldl_append, ih (n / 10) (by omega)]
      simp [digitChar_toNat (n % 10) (by omega), Nat.pow_succ]
      rw [← Nat.mul_assoc, Nat.add_mul]
      omega

theorem readNat_decimal (n : Nat) : readNat (decimal n) = some n := by
  have h1 := decimal_ne_nil n
  have h2 : (decimal n).all Char.isDigit = true := by
    rw [List.all_eq_true]; exact decimal_all_digits n
  rw [readNat, if_pos ⟨h1, h2⟩, foldl_decimal]
  simp

theorem not_mem_decimal (n : Nat) (c : Char) (h : c.isDigit = false) : c ∉ decimal n := by
  intro hc
  rw [decimal_all_digits n c hc] at h
  cases h

theorem not_mem_decimalInt (z : Int) (c : Char) (h : c.isDigit = false) (h' : c ≠ '-') :
    c ∉ decimalInt z := by
  unfold decimalInt
  split
  · simp only [List.mem_cons, not_or]
    exact ⟨h', not_mem_decimal _ c h⟩
  · exact not_mem_decimal _ c h

theorem decimalInt_ne_nil (z : Int) : decimalInt z ≠ [] := by
  unfold decimalInt
  split
  · simp
  · exact decimal_ne_nil _

theorem readInt_digits (s : Str) (h : '-' ∉ s) : readInt s = (readNat s).map fun n => (n : Int) := by
  unfold readInt
  split
  · simp at h
  · rfl

theorem readInt_decimalInt (z : Int) : readInt (decimalInt z) = some z := by
  unfold decimalInt
  split
  · next h =>
    rw [readInt, readNat_decimal]
    show some (-(z.natAbs : Int)) = some z
    congr 1
    omega
  · next h =>
    rw [readInt_digits _ (not_mem_decimal _ _ (by decide)), readNat_decimal]
    show some (z.natAbs : Int) = some z
    congr 1
    omega

theorem decimalInt_inj (a b : Int) (h : decimalInt a = decimalInt b) : a = b := by
  have := readInt_decimalInt a
  rw [h, readInt_decimalInt] at this
  simpa using this.symm

theorem cut_append (c : Char) (a r : Str) (h : c ∉ a) : cut c (a ++ c :: r) = some (a, r) := by
  induction a with
  | nil => simp [cut]
  | cons d a ih =>
    simp only [List.mem_cons, not_or] at h
    simp [cut, Ne.symm h.1, ih h.2]

theorem cut_cons (c : Char) (r : Str) : cut c (c :: r) = some ([], r) := by simp [cut]

theorem strip_append (p r : Str) : strip p (p ++ r) = some r := by
  induction p with
  | nil => cases r <;> rfl
  | cons c p ih => simp [strip, ih]

theorem linesOf_append (a r : Str) (h : '\n' ∉ a) : linesOf (a ++ '\n' :: r) = a :: linesOf r := by
  induction a with
  | nil => simp [linesOf]
  | cons c a ih =>
    simp only [List.mem_cons, not_or] at h
    have hc : c ≠ '\n' := fun e => h.1 e.symm
    rw [List.cons_append, linesOf, ih h.2]
    exact hc

/-- The first digit of a positive number is not zero. -/
theorem decimal_head (n : Nat) : ∀ c s, decimal n = c :: s → s ≠ [] → c ≠ '0' := by
  induction n using Nat.strongRecOn with
  | _ n ih =>
    intro c s h hs
    rw [decimal] at h
    split at h
    · simp at h; exact absurd h.2.symm (by simpa using hs)
    · next hn =>
      obtain ⟨d, t, ht⟩ := List.exists_cons_of_ne_nil (decimal_ne_nil (n / 10))
      rw [ht] at h
      simp only [List.cons_append, List.cons.injEq] at h
      by_cases htn : t = []
      · subst htn
        rw [← h.1]
        rw [decimal] at ht
        split at ht
        · next hlt =>
          simp at ht
          intro e
          have := digitChar_toNat (n / 10) hlt
          rw [ht, e] at this
          have e2 : ('0' : Char).toNat = 48 := by decide
          omega
        · next hge =>
          obtain ⟨d', t', ht'⟩ := List.exists_cons_of_ne_nil (decimal_ne_nil (n / 10 / 10))
          rw [ht'] at ht
          simp at ht
      · rw [← h.1]
        exact ih (n / 10) (by omega) d t ht htn

theorem jsonNumber_decimalInt (z : Int) : jsonNumber (decimalInt z) = some z := by
  have hr := readInt_decimalInt z
  unfold jsonNumber
  split
  · next c s heq =>
    exfalso
    unfold decimalInt at heq
    split at heq
    · simp at heq
    · exact decimal_head _ _ _ heq (by simp) rfl
  · next c s heq =>
    exfalso
    unfold decimalInt at heq
    split at heq
    · simp only [List.cons.injEq, true_and] at heq
      exact decimal_head _ _ _ heq (by simp) rfl
    · exact not_mem_decimal z.natAbs '-' (by decide) (by rw [heq]; simp)
  · exact hr

end Oclint
