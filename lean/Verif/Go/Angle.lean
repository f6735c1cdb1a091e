import Mathlib.Analysis.SpecialFunctions.Trigonometric.Arctan
import Mathlib.Analysis.SpecialFunctions.Trigonometric.Inverse
import Mathlib.Analysis.SpecialFunctions.Complex.Arg
import Mathlib.Algebra.Order.Floor.Ring
/-
Angles and the trigonometric part of Go's package math, on exact real numbers.

Assumed behaviour of the external package github.com/soniakeys/unit (its source is not in /repo):
an `Angle`, `HourAngle`, `RA` or `Time` is a float64; `Rad` returns the radians of an angle; `Mod1` reduces to
`[0, 2π)`; `PMod x y` is the remainder of floored division, in `[0, y)`.
-/
namespace Verif.Go

open Real

/-- `unit.PMod(x, y)`: floored remainder. -/
noncomputable def pmod (x y : ℝ) : ℝ := x - y * ⌊x / y⌋

/-- `Angle.Mod1`: reduction to `[0, 2π)`. -/
noncomputable def mod1 (x : ℝ) : ℝ := pmod x (2 * π)

/-- `math.Atan2(y, x)`.  (For both arguments zero the value is 0, as in Go for positive zeros.) -/
noncomputable def atan2 (y x : ℝ) : ℝ := Complex.arg ⟨x, y⟩

theorem pmod_eq (x : ℝ) {y : ℝ} (hy : 0 < y) : 0 ≤ pmod x y ∧ pmod x y < y ∧ ∃ k : ℤ, x = pmod x y + k * y := by
  have h1 := Int.floor_le (x / y)
  have h2 := Int.lt_floor_add_one (x / y)
  rw [le_div_iff₀ hy] at h1
  rw [div_lt_iff₀ hy] at h2
  unfold pmod
  refine ⟨by linarith, by linarith, ⌊x / y⌋, by ring⟩

/-- A number congruent to x in the range is the reduction of x. -/
theorem pmod_unique {x y r : ℝ} (hy : 0 < y) (h0 : 0 ≤ r) (h1 : r < y) (k : ℤ) (hk : x = r + k * y) : pmod x y = r := by
  have : ⌊x / y⌋ = k := by
    rw [Int.floor_eq_iff, le_div_iff₀ hy, div_lt_iff₀ hy]
    constructor <;> nlinarith
  unfold pmod
  rw [this, hk]; ring

theorem mod1_eq (x : ℝ) : 0 ≤ mod1 x ∧ mod1 x < 2 * π ∧ ∃ k : ℤ, x = mod1 x + k * (2 * π) :=
  pmod_eq x (by positivity)

theorem sin_mod1 (x : ℝ) : sin (mod1 x) = sin x := by
  obtain ⟨-, -, k, hk⟩ := mod1_eq x
  conv_rhs => rw [hk]
  rw [sin_add_int_mul_two_pi]

theorem cos_mod1 (x : ℝ) : cos (mod1 x) = cos x := by
  obtain ⟨-, -, k, hk⟩ := mod1_eq x
  conv_rhs => rw [hk]
  rw [cos_add_int_mul_two_pi]

/-- Polar form: `atan2` returns the direction of the vector. -/
theorem atan2_polar (y x : ℝ) :
    Real.sqrt (x ^ 2 + y ^ 2) * cos (atan2 y x) = x ∧ Real.sqrt (x ^ 2 + y ^ 2) * sin (atan2 y x) = y := by
  have hn : ‖(⟨x, y⟩ : ℂ)‖ = Real.sqrt (x ^ 2 + y ^ 2) := by
    rw [Complex.norm_def, Complex.normSq_apply]; congr 1; simp; ring
  unfold atan2
  rw [← hn, Complex.norm_mul_cos_arg, Complex.norm_mul_sin_arg]
  exact ⟨rfl, rfl⟩

theorem atan2_range (y x : ℝ) : -π < atan2 y x ∧ atan2 y x ≤ π := ⟨Complex.neg_pi_lt_arg _, Complex.arg_le_pi _⟩

/-- The direction of `ρ (cos t, sin t)` is `t` up to full turns. -/
theorem atan2_of_polar {ρ t : ℝ} (hρ : 0 < ρ) : ∃ k : ℤ, atan2 (ρ * sin t) (ρ * cos t) = t + k * (2 * π) := by
  have h : (⟨ρ * cos t, ρ * sin t⟩ : ℂ) = ρ * (cos t + sin t * Complex.I) := by
    apply Complex.ext <;> simp [Complex.cos_ofReal_re, Complex.sin_ofReal_re]
  have h2 := Complex.arg_mul_cos_add_sin_mul_I_coe_angle hρ (t : Real.Angle)
  have h3 : ((atan2 (ρ * sin t) (ρ * cos t) : ℝ) : Real.Angle) = (t : Real.Angle) := by
    unfold atan2; rw [h]; simpa using h2
  rw [Real.Angle.angle_eq_iff_two_pi_dvd_sub] at h3
  obtain ⟨k, hk⟩ := h3
  exact ⟨k, by linarith⟩

end Verif.Go
