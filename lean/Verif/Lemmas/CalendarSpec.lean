import Verif.Spec.Calendar
import Mathlib.Tactic.Ring
import Mathlib.Order.SuccPred.Archimedean
import Mathlib.Data.Int.SuccPred

/-! Facts about the calendar specification, for any leap year rule. -/

namespace Verif.Lemmas

open Verif.Spec

section
variable (leap : Int → Prop) [DecidablePred leap]

theorem yearsLen_head (s : Int) (n : Nat) :
    yearsLen leap s (n + 1) = yearLen leap s + yearsLen leap (s + 1) n := by
  induction n with
  | zero => simp [yearsLen]
  | succ n ih =>
    rw [yearsLen, ih, yearsLen]
    have : s + 1 + (n : Int) = s + ((n + 1 : Nat) : Int) := by push_cast; ring
    rw [this]; ring

theorem yearStart_succ (y : Int) : yearStart leap (y + 1) = yearStart leap y + yearLen leap y := by
  unfold yearStart
  by_cases h : 0 ≤ y
  · have h1 : 0 ≤ y + 1 := by omega
    have h2 : (y + 1).toNat = y.toNat + 1 := by omega
    simp only [h, h1, if_true, h2, yearsLen]
    have : (0 : Int) + (y.toNat : Int) = y := by omega
    rw [this]
  · by_cases h1 : 0 ≤ y + 1
    · have : y = -1 := by omega
      subst this
      simp [yearsLen]
    · simp only [h, h1, if_false]
      have h2 : (-y).toNat = (-(y + 1)).toNat + 1 := by omega
      rw [h2, yearsLen_head]; ring

theorem monthsLen_12 (l : Prop) [Decidable l] : monthsLen l 12 = if l then 366 else 365 := by
  by_cases h : l <;> simp [monthsLen, monthLen, h]

theorem dayCount_month (y m : Int) (h1 : 1 ≤ m) :
    dayCount leap y (m + 1) 1 = dayCount leap y m 1 + monthLen (leap y) m := by
  unfold dayCount
  have h2 : (m + 1 - 1).toNat = (m - 1).toNat + 1 := by omega
  have h3 : ((m - 1).toNat : Int) + 1 = m := by omega
  rw [h2, monthsLen, h3]; ring

theorem dayCount_year (y : Int) :
    dayCount leap (y + 1) 1 1 = dayCount leap y 12 31 + 1 := by
  have h := dayCount_month leap y 12 (by norm_num)
  have h12 : monthLen (leap y) 12 = 31 := by simp [monthLen]
  rw [h12] at h
  unfold dayCount at *
  rw [yearStart_succ]
  have : yearLen leap y = monthsLen (leap y) 12 := by rw [monthsLen_12]; rfl
  rw [this]
  simp [monthsLen] at h ⊢
  omega

theorem monthLen_bounds (l : Prop) [Decidable l] (m : Int) : 28 ≤ monthLen l m ∧ monthLen l m ≤ 31 := by
  unfold monthLen; split_ifs <;> omega

theorem dayCount_day (y m d e : Int) : dayCount leap y m d = dayCount leap y m e + (d - e) := by
  unfold dayCount; ring

/-- Every integer is the day count of exactly one date (existence part). -/
theorem dayCount_surj (z : Int) : ∃ y m d, ValidDate leap y m d ∧ dayCount leap y m d = z := by
  induction z using Int.induction_on with
  | zero =>
    refine ⟨0, 1, 1, ⟨by norm_num, by norm_num, by norm_num, ?_⟩, by simp [dayCount, yearStart, yearsLen, monthsLen]⟩
    have := monthLen_bounds (leap 0) 1; omega
  | succ n ih =>
    obtain ⟨y, m, d, ⟨h1, h2, h3, h4⟩, hz⟩ := ih
    by_cases hd : d < monthLen (leap y) m
    · refine ⟨y, m, d + 1, ⟨h1, h2, by omega, by omega⟩, ?_⟩
      rw [dayCount_day leap y m (d + 1) d]; omega
    · have hd' : d = monthLen (leap y) m := by omega
      by_cases hm : m < 12
      · refine ⟨y, m + 1, 1, ⟨by omega, by omega, le_refl _, ?_⟩, ?_⟩
        · have := monthLen_bounds (leap y) (m + 1); omega
        · rw [dayCount_month leap y m h1]
          rw [dayCount_day leap y m d 1] at hz; omega
      · have hm' : m = 12 := by omega
        subst hm'
        have h12 : monthLen (leap y) 12 = 31 := by simp [monthLen]
        refine ⟨y + 1, 1, 1, ⟨by omega, by omega, le_refl _, ?_⟩, ?_⟩
        · have := monthLen_bounds (leap (y + 1)) 1; omega
        · rw [dayCount_year]; rw [← hz, hd', h12]
  | pred n ih =>
    obtain ⟨y, m, d, ⟨h1, h2, h3, h4⟩, hz⟩ := ih
    by_cases hd : 1 < d
    · refine ⟨y, m, d - 1, ⟨h1, h2, by omega, by omega⟩, ?_⟩
      rw [dayCount_day leap y m (d - 1) d]; omega
    · have hd' : d = 1 := by omega
      subst hd'
      by_cases hm : 1 < m
      · refine ⟨y, m - 1, monthLen (leap y) (m - 1), ⟨by omega, by omega, ?_, le_refl _⟩, ?_⟩
        · have := monthLen_bounds (leap y) (m - 1); omega
        · have := dayCount_month leap y (m - 1) (by omega)
          rw [show m - 1 + 1 = m by ring] at this
          rw [dayCount_day leap y (m - 1) _ 1]; omega
      · have hm' : m = 1 := by omega
        subst hm'
        have h12 : monthLen (leap (y - 1)) 12 = 31 := by simp [monthLen]
        refine ⟨y - 1, 12, 31, ⟨by omega, by omega, by omega, by omega⟩, ?_⟩
        have := dayCount_year leap (y - 1)
        rw [show y - 1 + 1 = y by ring] at this; omega

end

end Verif.Lemmas
