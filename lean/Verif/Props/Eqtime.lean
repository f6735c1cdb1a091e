import Verif.Props.Solar
import Verif.Props.Nutation
import Mathlib.Analysis.SpecialFunctions.Complex.LogBounds

/-! Property C115, second part: the equation of time by Smart's formula. -/

namespace Verif.Props

open Verif.Go Real Verif.Model Verif.Model.Nutation Verif.Model.Solar Verif.Lemmas Verif.Spec

/-- Reduction of the ecliptic to the equator: the right ascension of the point of the ecliptic at longitude l, with
y = tan²(ε/2), is l − y sin 2l + y² sin 2l cos 2l up to y³. -/
theorem reduction (l ε : ℝ) (hc : cos (ε / 2) ≠ 0) (hy : tan (ε / 2) ^ 2 < 1) :
    ∃ (φ : ℝ) (k : ℤ), atan2 (cos ε * sin l) (cos l) = l + φ + k * (2 * π) ∧
      |φ - (-(tan (ε / 2) ^ 2 * sin (2 * l)) + (tan (ε / 2) ^ 2) ^ 2 * (sin (2 * l) * cos (2 * l)))| ≤
        (tan (ε / 2) ^ 2) ^ 3 * (1 - tan (ε / 2) ^ 2)⁻¹ / 3 := by
  have hcε : cos ε * (1 + tan (ε / 2) ^ 2) = 1 - tan (ε / 2) ^ 2 := by
    have h1 : cos ε = 2 * cos (ε / 2) ^ 2 - 1 := by rw [← cos_two_mul]; congr 1; ring
    rw [h1, tan_eq_sin_div_cos]
    field_simp
    nlinarith [sin_sq_add_cos_sq (ε / 2)]
  generalize hY : tan (ε / 2) ^ 2 = y at *
  have y0 : 0 ≤ y := by rw [← hY]; positivity
  set z : ℂ := ⟨y * cos (2 * l), -(y * sin (2 * l))⟩ with hz
  have nz : ‖z‖ = y := by
    rw [Complex.norm_def, Complex.normSq_apply, hz]
    simp only
    rw [show y * cos (2 * l) * (y * cos (2 * l)) + -(y * sin (2 * l)) * -(y * sin (2 * l)) = y ^ 2 by
      linear_combination y ^ 2 * sin_sq_add_cos_sq (2 * l), sqrt_sq y0]
  have hb := Complex.norm_log_sub_logTaylor_le 2 (z := z) (by rw [nz]; exact hy)
  have hne : (1 : ℂ) + z ≠ 0 := by
    intro h
    have : z = -1 := by linear_combination h
    rw [this, norm_neg, norm_one] at nz
    linarith
  have hρ : 0 < ‖1 + z‖ := norm_pos_iff.mpr hne
  set φ := Complex.arg (1 + z) with hφ
  have r1 : ‖1 + z‖ * cos φ = 1 + y * cos (2 * l) := by rw [hφ, Complex.norm_mul_cos_arg]; simp [hz]
  have r2 : ‖1 + z‖ * sin φ = -(y * sin (2 * l)) := by rw [hφ, Complex.norm_mul_sin_arg]; simp [hz]
  have y1 : 0 < 1 + y := by linarith
  have q1 : cos l = ‖1 + z‖ / (1 + y) * cos (l + φ) := by
    rw [div_mul_eq_mul_div, eq_div_iff y1.ne', cos_add]
    rw [sin_two_mul] at r2
    rw [cos_two_mul] at r1
    linear_combination (-cos l) * r1 + sin l * r2 - 2 * y * cos l * sin_sq_add_cos_sq l
  have q2 : cos ε * sin l = ‖1 + z‖ / (1 + y) * sin (l + φ) := by
    rw [div_mul_eq_mul_div, eq_div_iff y1.ne', sin_add]
    rw [sin_two_mul] at r2
    rw [cos_two_mul] at r1
    linear_combination (-sin l) * r1 - cos l * r2 + sin l * hcε
  obtain ⟨k, hk⟩ := atan2_of_polar (ρ := ‖1 + z‖ / (1 + y)) (t := l + φ) (by positivity)
  refine ⟨φ, k, by rw [q1, q2, hk], ?_⟩
  have e1 : (Complex.log (1 + z) - Complex.logTaylor 3 z).im =
      φ - (-(y * sin (2 * l)) + y ^ 2 * (sin (2 * l) * cos (2 * l))) := by
    rw [Complex.sub_im, Complex.log_im, ← hφ]
    congr 1
    have e0 : Complex.logTaylor 3 z = z - z * z / 2 := by
      simp [Complex.logTaylor_succ, Complex.logTaylor_zero]
      ring
    rw [e0, Complex.sub_im, Complex.div_ofNat_im, Complex.mul_im]
    simp only [hz]
    ring
  rw [← e1]
  refine (Complex.abs_im_le_norm _).trans (hb.trans ?_)
  rw [nz]
  norm_num

/-- A bound of tan²(ε/2). -/
theorem tan_sq_half_le (ε a y : ℝ) (h0 : 0 ≤ ε) (ha : ε / 2 ≤ a) (ha1 : a < 1) (hy : (a / (1 - a ^ 2 / 2)) ^ 2 ≤ y) :
    cos (ε / 2) ≠ 0 ∧ tan (ε / 2) ^ 2 ≤ y := by
  have hd : 0 < 1 - a ^ 2 / 2 := by nlinarith
  have c1 : 1 - a ^ 2 / 2 ≤ cos (ε / 2) := by
    have := one_sub_sq_div_two_le_cos (x := ε / 2)
    nlinarith
  have cp : 0 < cos (ε / 2) := by linarith
  have s1 : sin (ε / 2) ≤ a := (sin_le (by linarith)).trans ha
  have s0 : 0 ≤ sin (ε / 2) := sin_nonneg_of_nonneg_of_le_pi (by linarith) (by linarith [pi_gt_three])
  refine ⟨cp.ne', ?_⟩
  rw [tan_eq_sin_div_cos]
  refine le_trans ?_ hy
  have a0 : 0 ≤ a := by linarith
  gcongr

/-- C115.  Smart's formula gives less than twenty minutes of time, for twenty centuries either side of 2000. -/
theorem C115_smart_bound (jde : ℝ) (h : |J2000Century jde| ≤ 20) :
    |Eqtime.ESmart jde| < 20 / 1440 * (2 * π) := by
  obtain ⟨o1, o2⟩ := C116_range jde h
  have hs := nsec_pos
  have p1 := pi_gt_d2
  have p2 := pi_lt_d2
  have hε : MeanObliquity jde / 2 ≤ 0.2083 := by
    have : sec = π / 180 / 3600 := rfl
    rw [this] at o2
    linarith
  obtain ⟨-, hy⟩ := tan_sq_half_le (MeanObliquity jde) 0.2083 0.0454 (by nlinarith) hε (by norm_num) (by norm_num)
  have he : 0 ≤ Eccentricity (J2000Century jde) ∧ Eccentricity (J2000Century jde) ≤ 0.0176 := by
    rw [abs_le] at h
    unfold Eccentricity hornerR
    simp only [List.foldr]
    constructor <;> nlinarith
  unfold Eqtime.ESmart
  dsimp only
  rw [mul_comm (MeanObliquity jde) 0.5, show (0.5 : ℝ) * MeanObliquity jde = MeanObliquity jde / 2 by ring, ← pow_two]
  have y0 : 0 ≤ tan (MeanObliquity jde / 2) ^ 2 := by positivity
  generalize tan (MeanObliquity jde / 2) ^ 2 = y at *
  generalize Eccentricity (J2000Century jde) = e at *
  generalize Eqtime.l0 _ = L
  generalize MeanAnomaly _ = M
  have t1 : |y * sin (L * 2)| ≤ 0.0454 := by
    rw [abs_mul, abs_of_nonneg y0]
    have := abs_sin_le_one (L * 2)
    nlinarith [abs_nonneg (sin (L * 2))]
  have t2 : |2 * e * sin M| ≤ 0.0352 := by
    rw [abs_mul, abs_of_nonneg (by linarith)]
    have := abs_sin_le_one M
    nlinarith [abs_nonneg (sin M)]
  have ey : e * y ≤ 0.0176 * 0.0454 := mul_le_mul he.2 hy y0 (by norm_num)
  have t3 : |4 * e * y * sin M * cos (L * 2)| ≤ 0.0033 := by
    rw [abs_mul, abs_mul, abs_of_nonneg (by have := he.1; positivity)]
    have := mul_le_mul (abs_sin_le_one M) (abs_cos_le_one (L * 2)) (abs_nonneg _) zero_le_one
    have h4 : 4 * e * y ≤ 0.0033 := by linarith
    have := mul_le_mul h4 this (by positivity) (by norm_num)
    linarith
  have t4 : |y * y * sin (L * 2) * cos (L * 2)| ≤ 0.00104 := by
    have e2 : y * y * sin (L * 2) * cos (L * 2) = y * y / 2 * sin (2 * (L * 2)) := by rw [sin_two_mul]; ring
    rw [e2, abs_mul, abs_of_nonneg (by positivity)]
    have := abs_sin_le_one (2 * (L * 2))
    have h4 : y * y / 2 ≤ 0.00104 := by nlinarith
    have := mul_le_mul h4 this (by positivity) (by norm_num)
    linarith
  have t5 : |1.25 * e * e * sin (M * 2)| ≤ 0.0004 := by
    rw [abs_mul, abs_of_nonneg (by have := he.1; positivity)]
    have := abs_sin_le_one (M * 2)
    have h4 : 1.25 * e * e ≤ 0.0004 := by nlinarith [he.1, he.2]
    have := mul_le_mul h4 this (by positivity) (by norm_num)
    linarith
  rw [abs_le] at t1 t2 t3 t4 t5
  rw [abs_lt]
  constructor <;> linarith

/-- The mean longitudes of packages solar and eqtime. -/
theorem l0_meanLon (T : ℝ) (h : |T| ≤ 2) : |Eqtime.l0 (T * 0.1) - meanLon T| ≤ 0.000001 := by
  have p2 := pi_lt_d2
  have p0 := pi_pos
  have e : Eqtime.l0 (T * 0.1) - meanLon T = hornerR T [280.4664567 - 280.46646, 36000.76982779 - 36000.76983, 0.0003032028 - 0.0003032,
      1 / 49931000, -1 / 153000000, -1 / 200000000000] * deg := by
    unfold Eqtime.l0 meanLon hornerR
    simp only [List.foldr]
    ring
  rw [e, abs_mul, abs_of_pos sdeg_pos]
  have b := (abs_hornerR_le T 2 h [280.4664567 - 280.46646, 36000.76982779 - 36000.76983, 0.0003032028 - 0.0003032,
      1 / 49931000, -1 / 153000000, -1 / 200000000000]).trans (show _ ≤ (0.00001 : ℝ) by norm_num [hornerR, abs_of_pos, abs_of_neg])
  have : deg ≤ 0.02 := by unfold deg; linarith
  have := mul_le_mul b this sdeg_pos.le (by norm_num)
  linarith

/-- The equation of the centre of package solar is the series in the eccentricity of package eqtime, to .00001. -/
theorem center_series (T : ℝ) (h : |T| ≤ 2) :
    |center T - (2 * Eccentricity T * sin (MeanAnomaly T) + 1.25 * Eccentricity T * Eccentricity T * sin (MeanAnomaly T * 2))| ≤
      0.00001 := by
  have p1 := pi_gt_d6
  have p2 := pi_lt_d6
  have hT := abs_le.mp h
  have e : center T - (2 * Eccentricity T * sin (MeanAnomaly T) + 1.25 * Eccentricity T * Eccentricity T * sin (MeanAnomaly T * 2)) =
      (hornerR T [1.914602, -0.004817, -0.000014] * deg - 2 * Eccentricity T) * sin (MeanAnomaly T) +
      ((0.019993 - 0.000101 * T) * deg - 1.25 * Eccentricity T * Eccentricity T) * sin (MeanAnomaly T * 2) +
      0.000289 * deg * sin (MeanAnomaly T * 3) := by
    unfold center; dsimp only; ring
  rw [e]
  have f1 : |hornerR T [1.914602, -0.004817, -0.000014] * deg - 2 * Eccentricity T| ≤ 0.000003 := by
    unfold Eccentricity hornerR deg
    simp only [List.foldr]
    obtain ⟨q, hq⟩ : ∃ q, π = 3.1415925 + q := ⟨π - 3.1415925, by ring⟩
    have q1 : -0.0000005 ≤ q := by linarith
    have q2 : q ≤ 0.0000005 := by linarith
    rw [hq]
    have hqT : |q * T| ≤ 0.000001 := by
      rw [abs_mul]
      have := mul_le_mul (abs_le.mpr ⟨q1, q2⟩) h (abs_nonneg _) (by norm_num)
      linarith
    have hT2 : T * T ≤ 4 := by nlinarith
    have hqT2 : |q * (T * T)| ≤ 0.000002 := by
      rw [abs_mul, abs_of_nonneg (mul_self_nonneg T)]
      have := mul_le_mul (abs_le.mpr ⟨q1, q2⟩) hT2 (mul_self_nonneg _) (by norm_num)
      linarith
    rw [abs_le] at hqT hqT2 ⊢
    constructor <;> nlinarith [mul_self_nonneg T]
  have f2 : |(0.019993 - 0.000101 * T) * deg - 1.25 * Eccentricity T * Eccentricity T| ≤ 0.000001 := by
    have he : |Eccentricity T - (0.016708634 - 0.000042037 * T)| ≤ 0.0000006 := by
      unfold Eccentricity hornerR
      simp only [List.foldr]
      rw [abs_le]; constructor <;> nlinarith
    obtain ⟨r, hr⟩ : ∃ r, Eccentricity T = 0.016708634 - 0.000042037 * T + r := ⟨Eccentricity T - (0.016708634 - 0.000042037 * T), by ring⟩
    have hr1 : |r| ≤ 0.0000006 := by rw [hr] at he; simpa using he
    have hrT : |r * T| ≤ 0.0000012 := by
      rw [abs_mul]
      have := mul_le_mul hr1 h (abs_nonneg _) (by norm_num)
      linarith
    have hr2 : |r * r| ≤ 0.000001 := by
      rw [abs_mul]
      have := mul_le_mul hr1 hr1 (abs_nonneg _) (by norm_num)
      linarith
    obtain ⟨q, hq⟩ : ∃ q, π = 3.1415925 + q := ⟨π - 3.1415925, by ring⟩
    have q1 : -0.0000005 ≤ q := by linarith
    have q2 : q ≤ 0.0000005 := by linarith
    have hqT : |q * T| ≤ 0.000001 := by
      rw [abs_mul]
      have := mul_le_mul (abs_le.mpr ⟨q1, q2⟩) h (abs_nonneg _) (by norm_num)
      linarith
    rw [hr]
    unfold deg
    rw [hq]
    have hT2 : T * T ≤ 4 := by nlinarith
    have hT3 := mul_self_nonneg T
    rw [abs_le] at hrT hr2 hqT hr1 ⊢
    constructor <;> nlinarith
  have f3 : |0.000289 * deg| ≤ 0.0000055 := by
    unfold deg
    rw [abs_of_pos (by positivity)]
    linarith
  refine (abs_add_three _ _ _).trans ?_
  rw [abs_mul, abs_mul, abs_mul _ (sin (MeanAnomaly T * 3))]
  have g1 := mul_le_mul f1 (abs_sin_le_one (MeanAnomaly T)) (abs_nonneg _) (by norm_num)
  have g2 := mul_le_mul f2 (abs_sin_le_one (MeanAnomaly T * 2)) (abs_nonneg _) (by norm_num)
  have g3 := mul_le_mul f3 (abs_sin_le_one (MeanAnomaly T * 3)) (abs_nonneg _) (by norm_num)
  linarith

set_option maxHeartbeats 1000000 in
/-- C115.  Smart's formula is, up to full turns, the mean longitude of the Sun less the right ascension of `TrueEquatorial`, to .0004
radians (5.5 seconds of time), for two centuries either side of 2000. -/
theorem C115_smart (jde : ℝ) (h : |J2000Century jde| ≤ 2) :
    ∃ k : ℤ, |Eqtime.ESmart jde - (Eqtime.l0 (J2000Century jde * 0.1) - (TrueEquatorial jde).1 + k * (2 * π))| ≤ 0.0004 := by
  have h20 : |J2000Century jde| ≤ 20 := by linarith
  obtain ⟨o1, -⟩ := C116_range jde h20
  have hs := nsec_pos
  have p1 := pi_gt_d2
  have p2 := pi_lt_d6
  have hε : MeanObliquity jde / 2 ≤ 0.2049 := by
    have b := (abs_hornerR_le _ 2 h [0, -46.815, -0.00059, 0.001813]).trans
      (show _ ≤ (94 : ℝ) by norm_num [hornerR, abs_of_pos, abs_of_neg])
    have e : MeanObliquity jde = (84381.448 + hornerR (J2000Century jde) [0, -46.815, -0.00059, 0.001813]) * sec := by
      unfold MeanObliquity hornerR
      simp only [List.foldr]
      ring
    rw [abs_le] at b
    rw [e]
    have : sec ≤ 3.141593 / 180 / 3600 := by unfold sec; linarith
    nlinarith
  obtain ⟨hc, hy⟩ := tan_sq_half_le (MeanObliquity jde) 0.2049 0.0439 (by nlinarith) hε (by norm_num) (by norm_num)
  have he : 0 ≤ Eccentricity (J2000Century jde) ∧ Eccentricity (J2000Century jde) ≤ 0.0168 := by
    rw [abs_le] at h
    unfold Eccentricity hornerR
    simp only [List.foldr]
    constructor <;> nlinarith
  have y0 : 0 ≤ tan (MeanObliquity jde / 2) ^ 2 := by positivity
  have hl0 := l0_meanLon _ h
  have hcs := center_series _ h
  obtain ⟨-, -, n, hn⟩ := mod1_eq (meanLon (J2000Century jde) + center (J2000Century jde))
  obtain ⟨φ, m, hα, hφ⟩ := reduction (TrueLon (J2000Century jde)).1 (MeanObliquity jde) hc (by linarith)
  obtain ⟨-, -, j, hj⟩ := mod1_eq (atan2 (cos (MeanObliquity jde) * sin (TrueLon (J2000Century jde)).1) (cos (TrueLon (J2000Century jde)).1))
  have hαj : (TrueEquatorial jde).1 = (TrueLon (J2000Century jde)).1 + φ + m * (2 * π) - j * (2 * π) := by
    rw [← hα]
    show mod1 _ = _
    linear_combination -hj
  have hl : (TrueLon (J2000Century jde)).1 = meanLon (J2000Century jde) + center (J2000Century jde) - n * (2 * π) := by
    show mod1 _ = _
    linear_combination -hn
  refine ⟨m - j - n, ?_⟩
  rw [hαj, hl]
  push_cast
  rw [hl] at hφ
  rw [show 2 * (meanLon (J2000Century jde) + center (J2000Century jde) - n * (2 * π)) =
    2 * (meanLon (J2000Century jde) + center (J2000Century jde)) - ((2 * n : ℤ) : ℝ) * (2 * π) by push_cast; ring,
    sin_sub_int_mul_two_pi, cos_sub_int_mul_two_pi] at hφ
  unfold Eqtime.ESmart
  dsimp only
  rw [mul_comm (MeanObliquity jde) 0.5, show (0.5 : ℝ) * MeanObliquity jde = MeanObliquity jde / 2 by ring, ← pow_two]
  have hφ3 : (tan (MeanObliquity jde / 2) ^ 2) ^ 3 * (1 - tan (MeanObliquity jde / 2) ^ 2)⁻¹ / 3 ≤ 0.0000296 := by
    have i1 : (1 - tan (MeanObliquity jde / 2) ^ 2)⁻¹ ≤ (1 - 0.0439)⁻¹ := inv_anti₀ (by norm_num) (by linarith)
    have i2 : (tan (MeanObliquity jde / 2) ^ 2) ^ 3 ≤ 0.0439 ^ 3 := by gcongr
    have i0 : 0 ≤ (1 - tan (MeanObliquity jde / 2) ^ 2)⁻¹ := inv_nonneg.mpr (by linarith)
    have := mul_le_mul i2 i1 i0 (by norm_num)
    have i4 : (0.0439 : ℝ) ^ 3 * (1 - 0.0439)⁻¹ ≤ 0.0000888 := by norm_num
    linarith
  replace hφ := hφ.trans hφ3
  clear hφ3 hα hαj hl hj hn hc o1 hε
  generalize tan (MeanObliquity jde / 2) ^ 2 = y at *
  generalize Eccentricity (J2000Century jde) = e at *
  generalize MeanAnomaly (J2000Century jde) = M at *
  generalize hL : Eqtime.l0 (J2000Century jde * 0.1) = L at *
  generalize hC : center (J2000Century jde) = C at *
  generalize hB : meanLon (J2000Century jde) = B at *
  -- the longitude is L + D
  obtain ⟨D, hD⟩ : ∃ D, B + C = L + D := ⟨B + C - L, by ring⟩
  have eC : |2 * e * sin M| ≤ 0.0336 := by
    rw [abs_mul, abs_of_nonneg (by linarith)]
    have := mul_le_mul (show 2 * e ≤ 0.0336 by linarith) (abs_sin_le_one M) (abs_nonneg _) (by norm_num)
    linarith
  have e2 : |1.25 * e * e * sin (M * 2)| ≤ 0.000353 := by
    rw [abs_mul, abs_of_nonneg (by have := he.1; positivity)]
    have h4 : 1.25 * e * e ≤ 0.000353 := by nlinarith [he.1, he.2]
    have := mul_le_mul h4 (abs_sin_le_one (M * 2)) (abs_nonneg _) (by norm_num)
    linarith
  have d1 : |D - 2 * e * sin M| ≤ 0.000365 := by
    rw [abs_le] at hl0 hcs e2 ⊢
    constructor <;> linarith
  have d2 : |D| ≤ 0.034 := by
    rw [abs_le] at d1 eC ⊢
    constructor <;> linarith
  rw [hD] at hφ
  -- sin 2(L+D)
  have dd : D ^ 2 ≤ 0.034 ^ 2 := by rw [← sq_abs]; gcongr
  have s1 : |1 - cos (2 * D)| ≤ 0.00232 := by
    rw [abs_of_nonneg (by linarith [cos_le_one (2 * D)])]
    have := one_sub_sq_div_two_le_cos (x := 2 * D)
    nlinarith
  have s2 : |sin (2 * D) - 2 * D| ≤ 0.00011 := by
    have b : |2 * D| ≤ 0.068 := by rw [abs_mul, abs_of_pos (by norm_num : (0 : ℝ) < 2)]; linarith
    generalize 2 * D = x at b
    have := sin_bound (x := x) (by linarith)
    have t4 : |x| ^ 5 ≤ 0.068 ^ 5 := by gcongr
    have t3 : |x ^ 3| ≤ 0.068 ^ 3 := by rw [abs_pow]; gcongr
    rw [abs_le] at this t3 ⊢
    norm_num at t4 t3
    constructor <;> linarith
  have k1 : |sin (2 * (L + D)) - sin (L * 2) - 4 * e * sin M * cos (L * 2)| ≤ 0.00232 + 0.00011 + 2 * 0.000365 := by
    have : sin (2 * (L + D)) - sin (L * 2) - 4 * e * sin M * cos (L * 2) =
        -(1 - cos (2 * D)) * sin (L * 2) + (sin (2 * D) - 2 * D) * cos (L * 2) + 2 * (D - 2 * e * sin M) * cos (L * 2) := by
      rw [show 2 * (L + D) = L * 2 + 2 * D by ring, sin_add]
      ring
    rw [this]
    refine (abs_add_three _ _ _).trans ?_
    rw [abs_mul, abs_mul, abs_mul (2 * _), abs_neg, abs_mul 2, abs_of_pos (by norm_num : (0 : ℝ) < 2)]
    have g1 := mul_le_mul s1 (abs_sin_le_one (L * 2)) (abs_nonneg _) (by norm_num)
    have g2 := mul_le_mul s2 (abs_cos_le_one (L * 2)) (abs_nonneg _) (by norm_num)
    have g3 := mul_le_mul (mul_le_mul_of_nonneg_left d1 (by norm_num : (0 : ℝ) ≤ 2)) (abs_cos_le_one (L * 2)) (abs_nonneg _) (by norm_num)
    linarith
  have k2 : |sin (2 * (L + D)) * cos (2 * (L + D)) - sin (L * 2) * cos (L * 2)| ≤ 0.068 := by
    have : sin (2 * (L + D)) * cos (2 * (L + D)) - sin (L * 2) * cos (L * 2) = (sin (2 * (2 * (L + D))) - sin (2 * (L * 2))) / 2 := by
      rw [sin_two_mul (2 * (L + D)), sin_two_mul (L * 2)]; ring
    rw [this, abs_div, abs_of_pos (by norm_num : (0 : ℝ) < 2)]
    have := abs_sin_sub_sin (2 * (2 * (L + D))) (2 * (L * 2))
    rw [show 2 * (2 * (L + D)) - 2 * (L * 2) = 4 * D by ring, abs_mul, abs_of_pos (by norm_num : (0 : ℝ) < 4)] at this
    linarith
  have f1 : |y * (sin (2 * (L + D)) - sin (L * 2) - 4 * e * sin M * cos (L * 2))| ≤ 0.0439 * (0.00232 + 0.00011 + 2 * 0.000365) := by
    rw [abs_mul, abs_of_nonneg y0]
    exact mul_le_mul hy k1 (abs_nonneg _) (by norm_num)
  have f2 : |y ^ 2 * (sin (2 * (L + D)) * cos (2 * (L + D)) - sin (L * 2) * cos (L * 2))| ≤ 0.0439 ^ 2 * 0.068 := by
    rw [abs_mul, abs_of_nonneg (sq_nonneg y)]
    exact mul_le_mul (by gcongr) k2 (abs_nonneg _) (by norm_num)
  rw [abs_le] at f1 f2 hφ hcs hl0 ⊢
  constructor <;> nlinarith

end Verif.Props
