import Verif.Spec.Suppress
import Verif.Lemmas.Registry

/-!
# Lemmas about source lines
-/

namespace Oclint
open Spec

theorem showNat_eq (n : Nat) : ∀ acc, showNat n acc = decimal n ++ acc := by
  induction n using Nat.strongRecOn with
  | ind n ih =>
    intro acc
    rw [showNat, decimal]
    by_cases h : n < 10
    · simp [h, digitChar]
    · rw [if_neg h, if_neg h, ih (n / 10) (by omega)]
      simp [digitChar]

theorem toStringInt_eq (z : Int) : toStringInt z = decimalInt z := by
  unfold toStringInt decimalInt
  rw [showNat_eq]; simp

theorem splitNewline_no_newline (s : Str) (h : '\n' ∉ s) : splitNewline s = (s, []) := by
  induction s with
  | nil => rfl
  | cons c cs ih =>
    have hc : c ≠ '\n' := fun h2 => h (by simp [h2])
    have := ih (fun h2 => h (by simp [h2]))
    simp [splitNewline, hc, this]

theorem splitNewline_append (a b : Str) (h : '\n' ∉ a) :
    splitNewline (a ++ '\n' :: b) = (a, b) := by
  induction a with
  | nil => simp [splitNewline]
  | cons c cs ih =>
    have hc : c ≠ '\n' := fun h2 => h (by simp [h2])
    have := ih (fun h2 => h (by simp [h2]))
    simp [splitNewline, hc, this]

theorem newline_cases (s : Str) :
    ('\n' ∉ s) ∨ ∃ a b, '\n' ∉ a ∧ s = a ++ '\n' :: b := by
  by_cases h : '\n' ∈ s
  · obtain ⟨a, b, h1, h2⟩ := List.eq_append_cons_of_mem h
    exact Or.inr ⟨a, b, h2, h1⟩
  · exact Or.inl h

theorem eachLine_last (k : Int) (s : Str) (hs : s ≠ []) (h : '\n' ∉ s) :
    eachLineCalls k s = [(k, s)] := by
  cases s with
  | nil => exact absurd rfl hs
  | cons c cs => rw [eachLineCalls, splitNewline_no_newline _ h]; simp [eachLineCalls]

theorem eachLine_split (k : Int) (a b : Str) (h : '\n' ∉ a) :
    eachLineCalls k (a ++ '\n' :: b) = (k, a) :: eachLineCalls (k + 1) b := by
  rcases hs : a ++ '\n' :: b with _ | ⟨c, cs⟩
  · simp at hs
  · rw [eachLineCalls, ← hs, splitNewline_append _ _ h]

theorem joinLines_cons (l : Str) (ls : List Str) (h : ls ≠ []) :
    joinLines (l :: ls) = l ++ '\n' :: joinLines ls := by
  cases ls with
  | nil => exact absurd rfl h
  | cons => rfl

/-- The lines of the calls are the lines of the buffer. -/
theorem eachLine_isLines (n : Nat) : ∀ (k : Int) (s : Str), s.length ≤ n →
    IsLines s ((eachLineCalls k s).map Prod.snd) := by
  induction n with
  | zero =>
    intro k s hs
    have : s = [] := List.length_eq_zero_iff.1 (by omega)
    subst this
    simp [eachLineCalls, IsLines]
  | succ n ih =>
    intro k s hs
    rcases newline_cases s with h | ⟨a, b, ha, rfl⟩
    · by_cases hne : s = []
      · subst hne; simp [eachLineCalls, IsLines]
      · rw [eachLine_last k s hne h]
        refine ⟨by simpa using h, Or.inr ⟨by simp, Or.inr ⟨by simp [joinLines], by simpa using hne⟩⟩⟩
    · rw [eachLine_split k a b ha]
      have hb := ih (k + 1) b (by simp at hs; omega)
      simp only [List.map_cons]
      generalize (eachLineCalls (k + 1) b).map Prod.snd = ls at hb
      obtain ⟨hn, hb⟩ := hb
      refine ⟨?_, Or.inr ⟨by simp, ?_⟩⟩
      · intro l hl
        rcases List.mem_cons.1 hl with rfl | hl
        · exact ha
        · exact hn l hl
      · rcases hb with ⟨rfl, rfl⟩ | ⟨hne, hb⟩
        · exact Or.inl (by simp [joinLines])
        · rw [joinLines_cons _ _ hne]
          rcases hb with rfl | ⟨rfl, hlast⟩
          · exact Or.inl (by simp)
          · refine Or.inr ⟨rfl, ?_⟩
            rcases ls with _ | ⟨x, xs⟩
            · exact absurd rfl hne
            · rw [List.getLast?_cons_cons]; exact hlast

/-- Only one list can be the lines of a buffer. -/
theorem isLines_unique (ls : List Str) : ∀ (s : Str) (k : Int), IsLines s ls →
    (eachLineCalls k s).map Prod.snd = ls := by
  induction ls with
  | nil =>
    rintro s k ⟨_, ⟨rfl, _⟩ | ⟨h, _⟩⟩
    · simp [eachLineCalls]
    · exact absurd rfl h
  | cons l ls ih =>
    rintro s k ⟨hn, ⟨_, h⟩ | ⟨_, h⟩⟩
    · simp at h
    · have hl : '\n' ∉ l := hn l (by simp)
      by_cases hls : ls = []
      · subst hls
        rcases h with rfl | ⟨h, hlast⟩
        · rw [show joinLines [l] ++ ['\n'] = l ++ '\n' :: [] from rfl, eachLine_split k l [] hl]
          simp [eachLineCalls]
        · rw [show s = l from h, eachLine_last k l (by simpa using hlast) hl]
          rfl
      · rw [joinLines_cons _ _ hls] at h
        rcases h with rfl | ⟨rfl, hlast⟩
        · rw [show l ++ '\n' :: joinLines ls ++ ['\n'] = l ++ '\n' :: (joinLines ls ++ ['\n']) by simp,
            eachLine_split k _ _ hl, List.map_cons,
            ih _ (k + 1) ⟨fun x hx => hn x (by simp [hx]), Or.inr ⟨hls, Or.inl rfl⟩⟩]
        · rw [eachLine_split k _ _ hl, List.map_cons,
            ih _ (k + 1) ⟨fun x hx => hn x (by simp [hx]), Or.inr ⟨hls, Or.inr ⟨rfl, ?_⟩⟩⟩]
          rcases ls with _ | ⟨x, xs⟩
          · exact absurd rfl hls
          · rw [List.getLast?_cons_cons] at hlast; exact hlast

/-- The calls are numbered consecutively. -/
theorem eachLine_numbers (n : Nat) : ∀ (k : Int) (s : Str), s.length ≤ n →
    ∀ i : Nat, (eachLineCalls k s)[i]? =
      ((eachLineCalls k s).map Prod.snd)[i]?.map fun l => (k + (i : Int), l) := by
  induction n with
  | zero =>
    intro k s hs i
    have : s = [] := List.length_eq_zero_iff.1 (by omega)
    subst this
    simp [eachLineCalls]
  | succ n ih =>
    intro k s hs i
    rcases newline_cases s with h | ⟨a, b, ha, rfl⟩
    · by_cases hne : s = []
      · subst hne; simp [eachLineCalls]
      · rw [eachLine_last k s hne h]
        cases i <;> simp
    · rw [eachLine_split k a b ha]
      cases i with
      | zero => simp
      | succ i =>
        have := ih (k + 1) b (by simp at hs; omega) i
        simp only [List.getElem?_cons_succ, List.map_cons]
        rw [this]
        congr 1
        funext l
        simp; omega

end Oclint
