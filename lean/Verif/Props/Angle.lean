import Verif.Lemmas.Sphere
import Verif.Model.Angle
import Mathlib.Geometry.Euclidean.Angle.Unoriented.TriangleInequality
import Mathlib.Analysis.Real.Pi.Bounds

/-! Properties C44, C45, C82: angular separation and position angle. -/

namespace Verif.Props

open Real Verif.Spec Verif.Go Verif.Model.Angle Verif.Lemmas

theorem dot_bounds (r1 d1 r2 d2 : ℝ) :
    -1 ≤ sin d1 * sin d2 + cos d1 * cos d2 * cos (r1 - r2) ∧ sin d1 * sin d2 + cos d1 * cos d2 * cos (r1 - r2) ≤ 1 := by
  have := abs_real_inner_le_norm (dir r1 d1) (dir r2 d2)
  rw [norm_dir, norm_dir, inner_dir, mul_one, abs_le] at this
  exact this

/-- C44.  SepHav is the angle between the two direction vectors. -/
theorem C44_sepHav (r1 d1 r2 d2 : ℝ) : SepHav r1 d1 r2 d2 = sep r1 d1 r2 d2 := by
  rw [sep_eq]
  obtain ⟨b1, b2⟩ := dot_bounds r1 d1 r2 d2
  set D := sin d1 * sin d2 + cos d1 * cos d2 * cos (r1 - r2) with hD
  have hc := cos_arccos b1 b2
  have h0 := arccos_nonneg D
  have hπ := arccos_le_pi D
  set t := arccos D
  have harg : Hav (d2 - d1) + cos d1 * cos d2 * Hav (r2 - r1) = sin (t / 2) ^ 2 := by
    have h2 := cos_two_mul (t / 2)
    rw [mul_div_cancel₀ _ two_ne_zero, hc, hD] at h2
    have h3 := sin_sq_add_cos_sq (t / 2)
    unfold Hav
    rw [cos_sub d2 d1, ← neg_sub r1 r2, cos_neg]
    linear_combination -h3 - h2 / 2
  unfold SepHav
  rw [harg, sqrt_sq (sin_nonneg_of_nonneg_of_le_pi (by linarith) (by linarith)), arcsin_sin (by linarith) (by linarith)]
  ring

/-- C44.  SepPauwels is the angle between the two direction vectors. -/
theorem C44_sepPauwels (r1 d1 r2 d2 : ℝ) : SepPauwels r1 d1 r2 d2 = sep r1 d1 r2 d2 := by
  rw [sep_eq]
  obtain ⟨b1, b2⟩ := dot_bounds r1 d1 r2 d2
  have e : cos (r2 - r1) = cos (r1 - r2) := by rw [← neg_sub, cos_neg]
  unfold SepPauwels
  dsimp only
  rw [e]
  set D := sin d1 * sin d2 + cos d1 * cos d2 * cos (r1 - r2) with hD
  have hc := cos_arccos b1 b2
  have h0 := arccos_nonneg D
  have hπ := arccos_le_pi D
  set t := arccos D
  have hyp : hypot (cos d1 * sin d2 - sin d1 * cos d2 * cos (r1 - r2)) (cos d2 * sin (r2 - r1)) = sin t := by
    have hs : 0 ≤ sin t := sin_nonneg_of_nonneg_of_le_pi h0 hπ
    unfold hypot
    rw [← sqrt_sq hs]
    congr 1
    have e1 := sin_sq_add_cos_sq t
    have e2 := sin_sq_add_cos_sq d1
    have e3 := sin_sq_add_cos_sq d2
    have e4 := sin_sq_add_cos_sq (r2 - r1)
    rw [e] at e4
    rw [hc, hD] at e1
    linear_combination -e1 + cos d2 ^ 2 * e4 + (sin d2 ^ 2 + cos d2 ^ 2 * cos (r1 - r2) ^ 2) * e2 + e3
  rw [hyp, ← hc]
  have : (⟨cos t, sin t⟩ : ℂ) = Complex.cos t + Complex.sin t * Complex.I := by
    apply Complex.ext <;> simp [Complex.cos_ofReal_re, Complex.sin_ofReal_re]
  unfold atan2
  rw [this]
  exact Complex.arg_cos_add_sin_mul_I ⟨by linarith [pi_pos], hπ⟩

/-- C44.  The common value is a metric on directions: between 0 and π, symmetric, zero exactly for equal directions, triangle inequality. -/
theorem C44_metric (r1 d1 r2 d2 r3 d3 : ℝ) :
    0 ≤ SepHav r1 d1 r2 d2 ∧ SepHav r1 d1 r2 d2 ≤ π ∧
    SepHav r1 d1 r2 d2 = SepHav r2 d2 r1 d1 ∧
    (SepHav r1 d1 r2 d2 = 0 ↔ dir r1 d1 = dir r2 d2) ∧
    SepHav r1 d1 r3 d3 ≤ SepHav r1 d1 r2 d2 + SepHav r2 d2 r3 d3 := by
  simp only [C44_sepHav, sep]
  refine ⟨InnerProductGeometry.angle_nonneg _ _, InnerProductGeometry.angle_le_pi _ _, InnerProductGeometry.angle_comm _ _, ?_,
    InnerProductGeometry.angle_le_angle_add_angle _ _ _⟩
  constructor
  · intro h
    rw [InnerProductGeometry.angle_eq_zero_iff] at h
    obtain ⟨-, r, hr, h⟩ := h
    have := congrArg norm h
    rw [norm_smul, norm_dir, norm_dir, Real.norm_eq_abs, abs_of_pos hr, mul_one] at this
    rw [h, ← this, one_smul]
  · intro h
    rw [h]
    apply InnerProductGeometry.angle_self
    intro h0
    have := norm_dir r2 d2
    rw [h0, norm_zero] at this
    exact zero_ne_one this

/-- C45 (partial).  For true separations above 10′ Sep is the angle between the two directions; below, it is
the plane approximation.  Missing: below 10′ the difference of right ascensions is not reduced (see the violation). -/
theorem C45_sep_partial (r1 d1 r2 d2 : ℝ) (h : 10 / 60 * π / 180 < sep r1 d1 r2 d2) : Model.Angle.Sep r1 d1 r2 d2 = sep r1 d1 r2 d2 := by
  have hπ := pi_pos
  have hlt : sin d1 * sin d2 + cos d1 * cos d2 * cos (r1 - r2) < CosSmallAngle := by
    obtain ⟨b1, b2⟩ := dot_bounds r1 d1 r2 d2
    have hle := sep_eq r1 d1 r2 d2
    have := cos_lt_cos_of_nonneg_of_le_pi (by positivity) (by rw [hle]; exact arccos_le_pi _) h
    rwa [hle, cos_arccos b1 b2] at this
  unfold Model.Angle.Sep
  dsimp only
  rw [if_pos hlt, sep_eq]

example : (10 : ℝ) / 60 * π / 180 < sep 1 0 0 0 := by
  rw [sep_eq]; simp
  rw [arccos_cos (by norm_num) (by linarith [pi_gt_three])]
  linarith [pi_lt_four]

theorem sin_lower {x : ℝ} (h0 : 0 ≤ x) (h1 : x ≤ 0.05) : 0.9993 * x ≤ sin x := by
  rcases h0.eq_or_lt with rfl | h
  · simp
  · have := sin_gt_sub_cube h
    have h2 : x ^ 3 ≤ x * 0.0025 := by
      have : x ^ 2 ≤ 0.0025 := by nlinarith
      nlinarith
    linarith

/-- An angle within a half turn whose half has a small sine is small. -/
theorem sq_of_sin_half_small {x : ℝ} (hx : |x| ≤ π) (hs : |sin (x / 2)| ≤ 1 / 40) : x ^ 2 ≤ 1.0015 * (4 * sin (x / 2) ^ 2) := by
  have e1 : x ^ 2 = |x| ^ 2 := (sq_abs x).symm
  have e2 : sin (x / 2) ^ 2 = sin (|x| / 2) ^ 2 := by
    rcases abs_choice x with h | h
    · rw [h]
    · rw [h, neg_div, sin_neg]; ring
  have hs' : sin (|x| / 2) ≤ 1 / 40 := by
    have h3 : sin (|x| / 2) ^ 2 ≤ (1 / 40) ^ 2 := by
      rw [← e2, ← sq_abs]; exact pow_le_pow_left₀ (abs_nonneg _) hs 2
    exact le_of_sq_le_sq h3 (by norm_num)
  rw [e1, e2]
  have h0 := abs_nonneg x
  generalize |x| = y at *
  have hy : y / 2 ≤ 0.05 := by
    by_contra hgt
    push Not at hgt
    have h1 := sin_lower (x := 0.05) (by norm_num) (by norm_num)
    have h2 : sin 0.05 < sin (y / 2) :=
      sin_lt_sin_of_lt_of_le_pi_div_two (by linarith [pi_gt_three]) (by linarith) hgt
    norm_num at h1
    linarith
  have h1 := sin_lower (by linarith) hy
  nlinarith

set_option maxHeartbeats 2000000 in
/-- C45 (partial).  For true separations θ up to 10′, right ascensions less than half a turn apart as numbers, and
declinations not within 20 θ or so of a pole, the result is within 3% of θ. -/
theorem C45_sep_small_partial (r1 d1 r2 d2 : ℝ) (h : sep r1 d1 r2 d2 ≤ 10 / 60 * π / 180)
    (hr : |r2 - r1| ≤ π) (hd : |d2 - d1| ≤ π)
    (h1 : 20 * sep r1 d1 r2 d2 ≤ cos d1) (h2 : 20 * sep r1 d1 r2 d2 ≤ cos d2) (hc1 : 0 < cos d1) (hc2 : 0 < cos d2) :
    |Model.Angle.Sep r1 d1 r2 d2 - sep r1 d1 r2 d2| ≤ 0.03 * sep r1 d1 r2 d2 := by
  have hπ := pi_pos
  have hπ4 := pi_lt_d2
  obtain ⟨b1, b2⟩ := dot_bounds r1 d1 r2 d2
  have hge : ¬ sin d1 * sin d2 + cos d1 * cos d2 * cos (r1 - r2) < CosSmallAngle := by
    rw [not_lt, ← cos_arccos b1 b2, ← sep_eq]
    exact cos_le_cos_of_nonneg_of_le_pi (by rw [sep_eq]; exact arccos_nonneg _) (by linarith) h
  unfold Model.Angle.Sep
  dsimp only
  rw [if_neg hge]
  have hθ0 : 0 ≤ sep r1 d1 r2 d2 := by rw [sep_eq]; exact arccos_nonneg _
  have hhav : sin (sep r1 d1 r2 d2 / 2) ^ 2 = sin ((d2 - d1) / 2) ^ 2 + cos d1 * cos d2 * sin ((r2 - r1) / 2) ^ 2 := by
    have k : ∀ x : ℝ, sin (x / 2) ^ 2 = (1 - cos x) / 2 := by
      intro x
      have a1 := cos_two_mul (x / 2)
      rw [mul_div_cancel₀ _ two_ne_zero] at a1
      linarith [sin_sq_add_cos_sq (x / 2)]
    rw [k, k, k, sep_eq, cos_arccos b1 b2, cos_sub d2 d1, ← neg_sub r1 r2, cos_neg]; ring
  have hLip : |cos d1 - cos d2| ≤ |d2 - d1| := by
    have := abs_cos_sub_cos_le d1 d2
    rwa [abs_sub_comm d1 d2] at this
  generalize sep r1 d1 r2 d2 = θ at *
  generalize cos d1 = c1 at *
  generalize cos d2 = c2 at *
  clear b1 b2 hge
  generalize r2 - r1 = x at *
  generalize d2 - d1 = w at *
  have hθ1 : θ / 2 ≤ 0.0015 := by linarith
  have sθ0 : sin (θ / 2) ≤ θ / 2 := sin_le (by linarith)
  have sθ1 := sin_lower (by linarith : 0 ≤ θ / 2) (by linarith)
  have hcc : 0 < c1 * c2 := mul_pos hc1 hc2
  rcases hθ0.eq_or_lt with h0 | h0
  · -- separation zero
    rw [← h0, zero_div, sin_zero] at hhav
    have w0 : sin (w / 2) ^ 2 = 0 := by nlinarith [sq_nonneg (sin (w / 2)), sq_nonneg (sin (x / 2))]
    have x0 : sin (x / 2) ^ 2 = 0 := by
      have : c1 * c2 * sin (x / 2) ^ 2 = 0 := by nlinarith [sq_nonneg (sin (w / 2)), sq_nonneg (sin (x / 2))]
      rcases mul_eq_zero.1 this with h | h
      · exact absurd h hcc.ne'
      · exact h
    have w1 := sq_of_sin_half_small hd (by rw [pow_eq_zero_iff two_ne_zero] at w0; rw [w0]; norm_num)
    have x1 := sq_of_sin_half_small hr (by rw [pow_eq_zero_iff two_ne_zero] at x0; rw [x0]; norm_num)
    rw [w0, mul_zero, mul_zero] at w1
    rw [x0, mul_zero, mul_zero] at x1
    have w2 : w = 0 := by nlinarith
    have x2 : x = 0 := by nlinarith
    rw [w2, x2, ← h0]; simp [hypot]
  have sθ2 : sin (θ / 2) ^ 2 ≤ (θ / 2) ^ 2 := pow_le_pow_left₀ (by linarith) sθ0 2
  have sθ3 : 0.9986 * (θ / 2) ^ 2 ≤ sin (θ / 2) ^ 2 := by nlinarith
  have sw : sin (w / 2) ^ 2 ≤ (θ / 2) ^ 2 := by nlinarith [mul_nonneg hcc.le (sq_nonneg (sin (x / 2)))]
  have hwabs : |sin (w / 2)| ≤ θ / 2 := abs_le_of_sq_le_sq sw (by linarith)
  have hw2 := sq_of_sin_half_small hd (by linarith)
  have hwle : sin (w / 2) ^ 2 * 4 ≤ w ^ 2 := by
    have := abs_sin_le_abs (x := w / 2)
    have h3 := pow_le_pow_left₀ (abs_nonneg _) this 2
    rw [sq_abs, sq_abs] at h3; linarith
  have hxle : sin (x / 2) ^ 2 * 4 ≤ x ^ 2 := by
    have := abs_sin_le_abs (x := x / 2)
    have h3 := pow_le_pow_left₀ (abs_nonneg _) this 2
    rw [sq_abs, sq_abs] at h3; linarith
  have hxabs : |sin (x / 2)| ≤ 1 / 40 := by
    apply abs_le_of_sq_le_sq _ (by norm_num)
    have h4 : (20 * θ) * (20 * θ) ≤ c1 * c2 := mul_le_mul h1 h2 (by positivity) hc1.le
    have h5 : c1 * c2 * sin (x / 2) ^ 2 ≤ (θ / 2) ^ 2 := by nlinarith [sq_nonneg (sin (w / 2))]
    have h6 : (20 * θ) * (20 * θ) * sin (x / 2) ^ 2 ≤ (θ / 2) ^ 2 :=
      (mul_le_mul_of_nonneg_right h4 (sq_nonneg _)).trans h5
    have h7 : θ ^ 2 * (400 * sin (x / 2) ^ 2) ≤ θ ^ 2 * (1 / 4) := by linarith
    have h8 := le_of_mul_le_mul_left h7 (by positivity)
    linarith
  have hx2 := sq_of_sin_half_small hr hxabs
  -- |w| ≤ 1.001 θ, so the cosines differ by at most about 5%
  have hwθ : |w| ≤ 1.001 * θ := by
    apply abs_le_of_sq_le_sq _ (by positivity)
    nlinarith
  rw [abs_le] at hLip
  have c12 : c1 ≤ 1.0501 * c2 := by linarith
  have c21 : c2 ≤ 1.0501 * c1 := by linarith
  have A1 : c1 ^ 2 ≤ 1.0501 * (c1 * c2) := by nlinarith
  have A2 : c1 * c2 ≤ 1.0501 * c1 ^ 2 := by nlinarith
  have B1 : c1 ^ 2 * x ^ 2 ≤ 1.0501 * (c1 * c2) * (1.0015 * (4 * sin (x / 2) ^ 2)) :=
    mul_le_mul A1 hx2 (sq_nonneg _) (by positivity)
  have B2 : c1 * c2 * (sin (x / 2) ^ 2 * 4) ≤ 1.0501 * c1 ^ 2 * x ^ 2 :=
    mul_le_mul A2 hxle (by positivity) (by positivity)
  have P0 : 0 ≤ c1 * c2 * sin (x / 2) ^ 2 := by positivity
  have U : (x * c1) ^ 2 + w ^ 2 ≤ 1.0517 * θ ^ 2 := by
    rw [mul_pow]; linarith [sq_nonneg (sin (w / 2))]
  have L : 0.95 * θ ^ 2 ≤ (x * c1) ^ 2 + w ^ 2 := by
    rw [mul_pow]; linarith [sq_nonneg w]
  have hS0 : 0 ≤ hypot (x * c1) w := sqrt_nonneg _
  have hS2 : hypot (x * c1) w ^ 2 = (x * c1) ^ 2 + w ^ 2 := sq_sqrt (by positivity)
  rw [← hS2] at U L
  rw [abs_le]
  constructor
  · by_contra hneg; push Not at hneg; nlinarith
  · by_contra hneg; push Not at hneg; nlinarith

example : sep 0 0 0.001 0 ≤ 10 / 60 * π / 180 ∧ 20 * sep 0 0 0.001 0 ≤ cos 0 := by
  have h : sep 0 0 0.001 0 = 0.001 := by
    rw [sep_eq]; simp
    rw [arccos_cos (by norm_num) (by linarith [pi_gt_three])]
  rw [h, cos_zero]
  constructor <;> norm_num
  linarith [pi_gt_three]

/-- C45, violation: for one and the same direction written with right ascensions 0 and 2π the result is a full turn. -/
theorem C45_violation : ∃ r1 d1 r2 d2 : ℝ, dir r1 d1 = dir r2 d2 ∧ Model.Angle.Sep r1 d1 r2 d2 = 2 * π := by
  refine ⟨0, 0, 2 * π, 0, ?_, ?_⟩
  · unfold dir; simp
  · have : ¬ (1 : ℝ) < CosSmallAngle := not_lt.2 (cos_le_one _)
    unfold Model.Angle.Sep hypot
    simp [this, sqrt_sq pi_pos.le, pi_pos.le]

/-- The position angle of the direction (r1, d1) seen from (r2, d2), counted from north through east: the components of the
first direction along the east point and the north point of the second are ρ sin P and ρ cos P, ρ ≥ 0. -/
def IsPositionAngle (P r1 d1 r2 d2 : ℝ) : Prop :=
  ∃ ρ, 0 ≤ ρ ∧ inner ℝ (dir r1 d1) (dir (r2 + π / 2) 0) = ρ * sin P ∧ inner ℝ (dir r1 d1) (dir r2 (d2 + π / 2)) = ρ * cos P

/-- C82 (partial).  The position angle returned by RelativePosition is the correct one with the opposite sign, that is, counted
from north through west.  Missing: the documented sense, counter-clockwise. -/
theorem C82_relativePosition_partial (r1 d1 r2 d2 : ℝ) (h : 0 < cos d1) :
    IsPositionAngle (-RelativePosition r1 d1 r2 d2) r1 d1 r2 d2 := by
  unfold RelativePosition
  obtain ⟨p1, p2⟩ := atan2_polar (sin (r2 - r1)) (cos d2 * tan d1 - sin d2 * cos (r2 - r1))
  set P := atan2 (sin (r2 - r1)) (cos d2 * tan d1 - sin d2 * cos (r2 - r1))
  set ρ := sqrt ((cos d2 * tan d1 - sin d2 * cos (r2 - r1)) ^ 2 + sin (r2 - r1) ^ 2)
  refine ⟨cos d1 * ρ, by positivity, ?_, ?_⟩
  · rw [inner_dir, sin_neg, sin_zero, cos_zero, mul_neg, mul_assoc (cos d1) ρ, p2, show r1 - (r2 + π / 2) = -(π / 2 - (r1 - r2)) by ring, cos_neg,
      cos_pi_div_two_sub, ← neg_sub r1 r2, sin_neg]
    ring
  · rw [inner_dir, cos_neg, mul_assoc (cos d1) ρ, p1, sin_add_pi_div_two, cos_add_pi_div_two, tan_eq_sin_div_cos, ← neg_sub r1 r2, cos_neg]
    field_simp
    ring

/-- C82, violation: a body due east (position angle 90°) is given position angle -90°. -/
theorem C82_violation :
    RelativePosition 1 0 0 0 = -(π / 2) ∧ IsPositionAngle (π / 2) 1 0 0 0 ∧ ¬ IsPositionAngle (-(π / 2)) 1 0 0 0 := by
  have hs : 0 < sin 1 := sin_pos_of_pos_of_lt_pi (by norm_num) (by linarith [pi_gt_three])
  have hin : inner ℝ (dir 1 0) (dir (0 + π / 2) 0) = sin 1 := by
    rw [inner_dir]; simp
    rw [← cos_neg, neg_sub, cos_pi_div_two_sub]
  have hin2 : inner ℝ (dir 1 0) (dir 0 (0 + π / 2)) = 0 := by
    rw [inner_dir]; simp
  refine ⟨?_, ⟨sin 1, hs.le, by rw [hin]; simp, by rw [hin2]; simp⟩, ?_⟩
  · unfold RelativePosition atan2
    have : (⟨cos 0 * tan 0 - sin 0 * cos (0 - 1), sin (0 - 1)⟩ : ℂ) = ((sin 1 : ℝ) : ℂ) * (-Complex.I) := by
      apply Complex.ext <;> simp [-Complex.ofReal_sin]
    rw [this, Complex.arg_real_mul _ hs, Complex.arg_neg_I]
  · rintro ⟨ρ, h0, h1, h2⟩
    rw [hin, sin_neg, sin_pi_div_two] at h1
    linarith

end Verif.Props
