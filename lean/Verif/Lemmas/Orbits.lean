import Verif.Model.Orbits
import Mathlib.Tactic.LinearCombination
import Mathlib.Tactic.FieldSimp
import Mathlib.Tactic.Positivity

namespace Verif.Lemmas

open Verif.Go Real Verif.Model.Orbits

theorem cbrt_cube (x : ℝ) : cbrt x ^ 3 = x := by
  unfold cbrt
  have key : ∀ y : ℝ, 0 ≤ y → (y ^ (1 / 3 : ℝ)) ^ 3 = y := by
    intro y hy
    rw [← rpow_natCast, ← rpow_mul hy]; norm_num
  split_ifs with h
  · have := key (-x) (by linarith)
    linear_combination -this
  · exact key x (by linarith)

theorem cbrt_pos {x : ℝ} (h : 0 < x) : 0 < cbrt x := by
  unfold cbrt; rw [if_neg (by linarith)]; positivity

/-- Barker's cubic has at most one real root. -/
theorem barker_unique {s t : ℝ} (h : s ^ 3 + 3 * s = t ^ 3 + 3 * t) : s = t := by
  have : (s - t) * (s ^ 2 + s * t + t ^ 2 + 3) = 0 := by linear_combination h
  rcases mul_eq_zero.1 this with h | h
  · linarith
  · nlinarith [sq_nonneg (s + t), sq_nonneg s, sq_nonneg t]

/-- `2 atan (tan (ν/2))` is ν up to full turns. -/
theorem cos_two_arctan_tan {x : ℝ} (h : cos x ≠ 0) : cos (2 * arctan (tan x)) = cos (2 * x) ∧ sin (2 * arctan (tan x)) = sin (2 * x) := by
  have hc2 := cos_sq_arctan (tan x)
  have ht : 1 + tan x ^ 2 = 1 / cos x ^ 2 := by
    rw [tan_eq_sin_div_cos]; field_simp; linarith [sin_sq_add_cos_sq x]
  rw [ht, one_div_one_div] at hc2
  constructor
  · rw [cos_two_mul, cos_two_mul, hc2]
  · rw [sin_two_mul, sin_two_mul]
    have h1 : sin (arctan (tan x)) = tan x * cos (arctan (tan x)) := by
      have := tan_arctan (tan x)
      rw [tan_eq_sin_div_cos (arctan _), div_eq_iff (cos_arctan_pos _).ne'] at this
      exact this
    rw [h1, mul_assoc, mul_assoc, ← sq, hc2, tan_eq_sin_div_cos]
    field_simp

theorem one_add_cos_two_arctan (s : ℝ) : (1 + cos (2 * arctan s)) * (1 + s ^ 2) = 2 := by
  rw [cos_two_mul, cos_sq_arctan]; field_simp; ring

end Verif.Lemmas
