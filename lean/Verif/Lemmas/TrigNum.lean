import Verif.Model.Moon
import Mathlib.Analysis.SpecialFunctions.Trigonometric.Bounds
import Mathlib.Analysis.Real.Pi.Bounds
import Mathlib.Tactic
/-
Numerical values of sine and cosine of given angles in degrees.
-/
namespace Verif.Lemmas

open Real

theorem cos_quartic {x : ℝ} (h0 : 0 ≤ x) (h1 : x ≤ 2) : cos x ≤ 1 - x ^ 2 / 2 + x ^ 4 / 24 := by
  have h := sin_ge_sub_cube (x := x / 2) (by linarith)
  have e : cos x = 1 - 2 * sin (x / 2) ^ 2 := by
    have h1 := cos_two_mul (x / 2)
    have h2 := sin_sq_add_cos_sq (x / 2)
    rw [show 2 * (x / 2) = x by ring] at h1
    linarith
  have h2 : 0 ≤ x / 2 - (x / 2) ^ 3 / 6 := by nlinarith [mul_nonneg h0 h0]
  have h3 := pow_le_pow_left₀ h2 h 2
  rw [e]
  nlinarith [pow_nonneg h0 6]

/-- Sine and cosine of a small angle. -/
theorem small_num {x lo hi : ℝ} (h0 : 0 ≤ lo) (h1 : lo ≤ x) (h2 : x ≤ hi) (h3 : hi ≤ 1) :
    lo - lo ^ 3 / 6 ≤ sin x ∧ sin x ≤ hi ∧ 1 - hi ^ 2 / 2 ≤ cos x ∧ cos x ≤ 1 - lo ^ 2 / 2 + lo ^ 4 / 24 := by
  have hx : 0 ≤ x := h0.trans h1
  have hp := pi_gt_three
  refine ⟨?_, (sin_le hx).trans h2, ?_, ?_⟩
  · refine (sin_ge_sub_cube h0).trans (sin_le_sin_of_le_of_le_pi_div_two (by linarith) (by linarith) h1)
  · have := one_sub_sq_div_two_le_cos (x := x)
    nlinarith
  · refine le_trans (cos_le_cos_of_nonneg_of_le_pi h0 (by linarith) h1) (cos_quartic h0 (by linarith))

/-- √3 to seven figures. -/
theorem sqrt3_num : 1.7320508 ≤ sqrt 3 ∧ sqrt 3 ≤ 1.7320509 := by
  constructor
  · apply le_sqrt_of_sq_le; norm_num
  · rw [sqrt_le_left (by norm_num)]; norm_num

theorem deg_num : 0.01745329251 ≤ Verif.Model.deg ∧ Verif.Model.deg ≤ 0.01745329252 := by
  have h1 := pi_gt_d20
  have h2 := pi_lt_d20
  unfold Verif.Model.deg
  constructor <;> linarith

end Verif.Lemmas
