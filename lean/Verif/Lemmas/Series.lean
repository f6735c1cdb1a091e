import Verif.Model.Moon
import Mathlib.Analysis.SpecialFunctions.Trigonometric.Bounds
import Mathlib.Analysis.Real.Pi.Bounds
import Mathlib.Tactic.Linarith
import Mathlib.Tactic.NormNum
import Mathlib.Tactic.IntervalCases

/-! Bounds on sums of periodic terms and on polynomials in time. -/

namespace Verif.Lemmas

open Verif.Model

theorem Horner_hornerR (x : ℝ) (c : List ℝ) (hc : c ≠ []) : Horner x c = some (hornerR x c) := by
  unfold Horner hornerR
  cases h : c.reverse with
  | nil => exact absurd (List.reverse_eq_nil_iff.1 h) hc
  | cons y rest =>
    have : c = (y :: rest).reverse := by rw [← h, List.reverse_reverse]
    rw [this, List.foldr_reverse, List.foldl_cons]
    simp

theorem series_abs (f : ℝ → ℝ) (hf : ∀ x, |f x| ≤ 1) (l : List (ℝ × ℝ)) : |series f l| ≤ (l.map fun t => |t.1|).sum := by
  unfold series
  induction l with
  | nil => simp
  | cons t l ih =>
    simp only [List.map_cons, List.sum_cons]
    refine (abs_add_le _ _).trans (add_le_add ?_ ih)
    rw [abs_mul]
    have := hf t.2
    nlinarith [abs_nonneg t.1, abs_nonneg (f t.2)]

theorem series_sin_abs (l : List (ℝ × ℝ)) : |series Real.sin l| ≤ (l.map fun t => |t.1|).sum := series_abs _ Real.abs_sin_le_one l

theorem series_cos_abs (l : List (ℝ × ℝ)) : |series Real.cos l| ≤ (l.map fun t => |t.1|).sum := series_abs _ Real.abs_cos_le_one l

theorem series_cons (f : ℝ → ℝ) (t : ℝ × ℝ) (l : List (ℝ × ℝ)) : series f (t :: l) = t.1 * f t.2 + series f l := by
  simp [series]

/-- Growth of a quartic with a dominating linear term. -/
theorem quartic_growth (a b c d e u v B : ℝ) (hB : 0 ≤ B) (hu : |u| ≤ B) (hv : |v| ≤ B) (huv : u ≤ v) :
    (v - u) * (b - 2 * B * |c| - 3 * B ^ 2 * |d| - 4 * B ^ 3 * |e|) ≤ hornerR v [a, b, c, d, e] - hornerR u [a, b, c, d, e] := by
  have e1 : hornerR v [a, b, c, d, e] - hornerR u [a, b, c, d, e] =
      (v - u) * (b + c * (u + v) + d * (u ^ 2 + u * v + v ^ 2) + e * (u ^ 3 + u ^ 2 * v + u * v ^ 2 + v ^ 3)) := by
    simp [hornerR]; ring
  rw [e1]
  apply mul_le_mul_of_nonneg_left _ (by linarith)
  have p1 : |u + v| ≤ 2 * B := (abs_add_le _ _).trans (by linarith)
  have uu : |u ^ 2| ≤ B ^ 2 := by rw [abs_pow]; exact pow_le_pow_left₀ (abs_nonneg u) hu 2
  have vv : |v ^ 2| ≤ B ^ 2 := by rw [abs_pow]; exact pow_le_pow_left₀ (abs_nonneg v) hv 2
  have uv : |u * v| ≤ B ^ 2 := by rw [abs_mul, pow_two]; exact mul_le_mul hu hv (abs_nonneg _) hB
  have u3 : |u ^ 3| ≤ B ^ 3 := by rw [abs_pow]; exact pow_le_pow_left₀ (abs_nonneg u) hu 3
  have v3 : |v ^ 3| ≤ B ^ 3 := by rw [abs_pow]; exact pow_le_pow_left₀ (abs_nonneg v) hv 3
  have u2v : |u ^ 2 * v| ≤ B ^ 3 := by
    rw [abs_mul, show B ^ 3 = B ^ 2 * B by ring]; exact mul_le_mul uu hv (abs_nonneg _) (by positivity)
  have uv2 : |u * v ^ 2| ≤ B ^ 3 := by
    rw [abs_mul, show B ^ 3 = B * B ^ 2 by ring]; exact mul_le_mul hu vv (abs_nonneg _) hB
  have p2 : |u ^ 2 + u * v + v ^ 2| ≤ 3 * B ^ 2 := by
    refine (abs_add_le _ _).trans ?_
    have := abs_add_le (u ^ 2) (u * v)
    linarith
  have p3 : |u ^ 3 + u ^ 2 * v + u * v ^ 2 + v ^ 3| ≤ 4 * B ^ 3 := by
    refine (abs_add_le _ _).trans ?_
    have h1 := abs_add_le (u ^ 3 + u ^ 2 * v) (u * v ^ 2)
    have h2 := abs_add_le (u ^ 3) (u ^ 2 * v)
    linarith
  have q : ∀ (c x X : ℝ), |x| ≤ X → -(X * |c|) ≤ c * x := by
    intro c x X h
    have : |c * x| ≤ X * |c| := by rw [abs_mul, mul_comm]; exact mul_le_mul_of_nonneg_right h (abs_nonneg c)
    exact (abs_le.1 this).1
  have := q c _ _ p1
  have := q d _ _ p2
  have := q e _ _ p3
  linarith

/-- The eccentricity factor E over ±4000 years. -/
theorem E_bound (T : ℝ) (hT : |T| ≤ 40) : 0.88 ≤ hornerR T [1, -0.002516, -0.0000074] ∧ hornerR T [1, -0.002516, -0.0000074] ≤ 1.1 := by
  rw [abs_le] at hT
  simp only [hornerR, List.foldr_cons, List.foldr_nil]
  constructor <;> norm_num <;> nlinarith

/-- The snap functions: the nearest number of the form integer + q. -/
theorem snap_spec (x q : ℝ) : (∃ n : ℤ, (⌊x - q + 0.5⌋ : ℝ) + q = n + q) ∧ abs ((⌊x - q + 0.5⌋ : ℝ) + q - x) ≤ 1 / 2 := by
  refine ⟨⟨_, rfl⟩, ?_⟩
  have h1 := Int.floor_le (x - q + 0.5)
  have h2 := Int.lt_floor_add_one (x - q + 0.5)
  rw [abs_le]; constructor <;> linarith

theorem snap_at (n : ℤ) (q x : ℝ) (hx : x = n + q) : (⌊x - q + 0.5⌋ : ℝ) + q = n + q := by
  subst hx
  have : ⌊(n : ℝ) + q - q + 0.5⌋ = n := by rw [Int.floor_eq_iff]; constructor <;> norm_num
  rw [this]

end Verif.Lemmas
