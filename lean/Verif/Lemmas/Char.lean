/-! Facts about ASCII characters. -/

namespace Oclint

theorem ascii_cases {P : Char → Prop} (h1 : ∀ n : Fin 128, P (Char.ofNat n))
    (h2 : ∀ c : Char, 128 ≤ c.toNat → P c) (c : Char) : P c := by
  by_cases h : c.toNat < 128
  · have := h1 ⟨c.toNat, h⟩
    simpa [Char.ofNat_toNat] using this
  · exact h2 c (by omega)

theorem not_lower_of_big (c : Char) (h : 128 ≤ c.toNat) : c.isLower = false := by
  simp only [Char.isLower, Bool.and_eq_false_iff, decide_eq_false_iff_not]
  right
  intro hc
  have := UInt32.le_iff_toNat_le.1 hc
  have e : c.toNat = c.val.toNat := rfl
  have e2 : 'z'.val.toNat = 122 := rfl
  omega

theorem not_upper_of_big (c : Char) (h : 128 ≤ c.toNat) : c.isUpper = false := by
  simp only [Char.isUpper, decide_eq_false_iff_not]
  intro hc
  have := UInt32.le_iff_toNat_le.1 hc.2
  have e : c.toNat = c.val.toNat := rfl
  have e2 : 'Z'.val.toNat = 90 := rfl
  omega

theorem not_alpha_of_big (c : Char) (h : 128 ≤ c.toNat) : c.isAlpha = false := by
  simp [Char.isAlpha, not_lower_of_big c h, not_upper_of_big c h]

theorem toUpper_of_not_lower (c : Char) (h : c.isLower = false) : c.toUpper = c := by
  unfold Char.toUpper
  rw [dif_neg]
  intro hc
  simp only [Char.isLower, Bool.and_eq_false_iff, decide_eq_false_iff_not] at h
  rcases h with h | h
  · exact h hc.1
  · exact h hc.2

theorem toUpper_isAlpha (c : Char) : c.toUpper.isAlpha = c.isAlpha := by
  refine ascii_cases (P := fun c => c.toUpper.isAlpha = c.isAlpha) (by decide) ?_ c
  intro c h
  rw [toUpper_of_not_lower c (not_lower_of_big c h)]

theorem toUpper_not_lower (c : Char) : c.toUpper.isLower = false := by
  refine ascii_cases (P := fun c => c.toUpper.isLower = false) (by decide) ?_ c
  intro c h
  rw [toUpper_of_not_lower c (not_lower_of_big c h)]
  exact not_lower_of_big c h

theorem toUpper_toUpper (c : Char) : c.toUpper.toUpper = c.toUpper :=
  toUpper_of_not_lower _ (toUpper_not_lower c)

theorem isAlpha_of_isLower (c : Char) (h : c.isLower = true) : c.isAlpha = true := by
  simp [Char.isAlpha, h]

end Oclint
