import Verif.Model.Illum
import Verif.Lemmas.Sphere
import Verif.Lemmas.Tangent
import Verif.Lemmas.Series
import Mathlib.Analysis.Real.Pi.Bounds
import Mathlib.Geometry.Euclidean.Triangle
/-
C70 – C74 and C95 – C97: phase angles, illuminated fractions, magnitudes, semidiameters.
-/
namespace Verif.Props

open Real Verif.Go Verif.Model Verif.Spec Verif.Lemmas

/-- The sides of a triangle (degenerate ones included). -/
structure Triangle (a b c : ℝ) : Prop where
  pos_a : 0 < a
  pos_b : 0 < b
  pos_c : 0 ≤ c
  ab : c ≤ a + b
  ac : b ≤ a + c
  bc : a ≤ b + c

theorem cos_law_bounds {a b c : ℝ} (h : Triangle a b c) :
    -1 ≤ (a * a + b * b - c * c) / (2 * a * b) ∧ (a * a + b * b - c * c) / (2 * a * b) ≤ 1 := by
  obtain ⟨ha, hb, hc, h1, h2, h3⟩ := h
  have hp : 0 < 2 * a * b := by positivity
  rw [le_div_iff₀ hp, div_le_iff₀ hp]
  constructor
  · nlinarith
  · nlinarith [mul_nonneg (by linarith : 0 ≤ b + c - a) (by linarith : 0 ≤ a + c - b)]

/-- C70: the illuminated fraction computed from the distances is the one computed from the phase angle, and it lies in [0, 1]. -/
theorem C70_fraction (r Δ R : ℝ) (h : Triangle r Δ R) :
    Illum.Fraction r Δ R = Illuminated (Illum.PhaseAngle r Δ R) ∧ 0 ≤ Illum.Fraction r Δ R ∧ Illum.Fraction r Δ R ≤ 1 := by
  have hb := cos_law_bounds h
  have e : Illum.Fraction r Δ R = Illuminated (Illum.PhaseAngle r Δ R) := by
    unfold Illum.Fraction Illuminated Illum.PhaseAngle
    rw [cos_arccos hb.1 hb.2]
    have h1 := h.pos_a.ne'
    have h2 := h.pos_b.ne'
    field_simp
    ring
  refine ⟨e, ?_, ?_⟩ <;> rw [e] <;> unfold Illuminated
  · linarith [neg_one_le_cos (Illum.PhaseAngle r Δ R)]
  · linarith [cos_le_one (Illum.PhaseAngle r Δ R)]

example : Triangle 0.724604 0.910947 0.983824 := ⟨by norm_num, by norm_num, by norm_num, by norm_num, by norm_num, by norm_num⟩

/-- C70: for a planet at P and the Earth at E, both seen from the Sun, the three functions return the angle at the planet between
the Sun and the Earth. -/
theorem C70_geometry (L B R L0 R0 : ℝ) (hR : 0 < R) (P E : V3) (hP : P = R • dir L B) (hE : E = R0 • dir L0 0) (hR0 : 0 ≤ R0)
    (hd : P ≠ E) :
    let i := InnerProductGeometry.angle (0 - P) (E - P)
    Illum.PhaseAngle R ‖P - E‖ R0 = i ∧ Illum.PhaseAngle2 L B R L0 R0 ‖P - E‖ = i ∧
      Illum.PhaseAngle3 L B ((P - E) 0) ((P - E) 1) ((P - E) 2) ‖P - E‖ = i := by
  intro i
  have hΔ : 0 < ‖P - E‖ := norm_pos_iff.2 (sub_ne_zero.2 hd)
  have nP : ‖P‖ = R := by rw [hP, norm_smul, norm_dir, Real.norm_of_nonneg hR.le, mul_one]
  have nE : ‖E‖ = R0 := by rw [hE, norm_smul, norm_dir, Real.norm_of_nonneg hR0, mul_one]
  have hi : i = arccos (inner ℝ P (P - E) / (R * ‖P - E‖)) := by
    show InnerProductGeometry.angle (0 - P) (E - P) = _
    rw [zero_sub, ← neg_sub P E, InnerProductGeometry.angle_neg_neg]
    unfold InnerProductGeometry.angle
    rw [nP]
  have hPE : inner ℝ P E = R * R0 * (cos B * cos (L - L0)) := by
    rw [hP, hE, inner_smul_left, inner_smul_right, inner_dir]
    simp
    ring
  have hsq : ‖P - E‖ ^ 2 = R ^ 2 - 2 * inner ℝ P E + R0 ^ 2 := by rw [norm_sub_sq_real, nP, nE]
  have hin : inner ℝ P (P - E) = R ^ 2 - inner ℝ P E := by
    rw [inner_sub_right, real_inner_self_eq_norm_sq, nP]
  rw [hi]
  refine ⟨?_, ?_, ?_⟩
  · unfold Illum.PhaseAngle
    congr 1
    rw [hin]
    have h1 := hR.ne'
    have h2 := hΔ.ne'
    field_simp
    linear_combination hsq
  · unfold Illum.PhaseAngle2
    congr 1
    rw [hin, hPE]
    have h1 := hR.ne'
    have h2 := hΔ.ne'
    field_simp
  · unfold Illum.PhaseAngle3
    congr 1
    have : inner ℝ P (P - E) = R * ((P - E) 0 * cos B * cos L + (P - E) 1 * cos B * sin L + (P - E) 2 * sin B) := by
      rw [hP, inner_smul_left]
      congr 1
      unfold dir
      generalize (R • (!₂[cos B * cos L, cos B * sin L, sin B] : V3) - E) = v
      simp [PiLp.inner_apply, Fin.sum_univ_three]
      ring
    rw [this]
    have h1 := hR.ne'
    have h2 := hΔ.ne'
    field_simp

/-- C71 is false: at the same instant but for the ring longitudes the two magnitudes differ by different amounts, and the 1984 one is
infinite when the ring longitudes of Sun and Earth coincide. -/
theorem C71_violation (r Δ B : ℝ) :
    (∃ a b : ℝ, Illum.Saturn84 r Δ B (1 * deg) = EF.fin a ∧ Illum.Saturn84 r Δ B (2 * deg) = EF.fin b ∧
      a - Illum.Saturn r Δ B (1 * deg) ≠ b - Illum.Saturn r Δ B (2 * deg)) ∧
    Illum.Saturn84 r Δ B 0 = EF.inf false := by
  have hpi := pi_pos
  have d1 : Illum.toDeg (1 * deg) = 1 := by unfold Illum.toDeg deg; field_simp
  have d2 : Illum.toDeg (2 * deg) = 2 := by unfold Illum.toDeg deg; field_simp
  constructor
  · unfold Illum.Saturn84 Illum.Saturn
    dsimp only
    rw [d1, d2, abs_one, abs_two, EF.fin_div_ne (by norm_num), EF.fin_div_ne (by norm_num)]
    refine ⟨_, _, rfl, rfl, ?_⟩
    intro h
    linarith
  · unfold Illum.Saturn84 Illum.toDeg
    rw [zero_mul, zero_div, abs_zero, EF.fin_div, if_pos rfl, if_neg (by norm_num)]
    norm_num
    rfl

/-- C71, largest part: the distance and ring opening terms agree; the difference depends on the ring longitudes alone, and for a
difference of one degree it is the constant -0.2 of the calibrations.  Missing: other differences. -/
theorem C71_difference_partial (r Δ B ΔU : ℝ) (hU : ΔU ≠ 0) :
    ∃ a, Illum.Saturn84 r Δ B ΔU = EF.fin a ∧
      a - Illum.Saturn r Δ B ΔU = -0.2 + 0.044 * (1 / |Illum.toDeg ΔU| - |Illum.toDeg ΔU|) := by
  have hpi := pi_pos.ne'
  have hd : |Illum.toDeg ΔU| ≠ 0 := by
    rw [abs_ne_zero]
    unfold Illum.toDeg
    positivity
  unfold Illum.Saturn84 Illum.Saturn
  dsimp only
  rw [EF.fin_div_ne hd]
  refine ⟨_, rfl, ?_⟩
  ring

/-! C72: integer division of the constants -/

/-- The mean longitude of the ascending node of the Moon in degrees, with the coefficients of the book. -/
noncomputable def nodeDeg (T : ℝ) : ℝ := 125.0445479 - 1934.1362891 * T + 0.0020754 * T ^ 2 + T ^ 3 / 467441 - T ^ 4 / 60616000

/-- The mean longitude of the perigee of the Moon in degrees, with the coefficients of the book. -/
noncomputable def perigeeDeg (T : ℝ) : ℝ := 83.3532465 + 4069.0137287 * T - 0.01032 * T ^ 2 - T ^ 3 / 80053 + T ^ 4 / 18999000

theorem node_value (jde : ℝ) : let T := J2000Century jde
    ∃ k : ℤ, Moonposition.Node jde = deg * (nodeDeg T - (T ^ 3 / 467441 - T ^ 4 / 60616000)) + k * (2 * π) := by
  intro T
  obtain ⟨-, -, k, hk⟩ := mod1_eq (deg * hornerR T [125.0445479, -1934.1362891, 0.0020754, (quo 1 467441 : ℤ), (quo (-1) 60616000 : ℤ)])
  refine ⟨-k, ?_⟩
  have e : hornerR T [125.0445479, -1934.1362891, 0.0020754, (quo 1 467441 : ℤ), (quo (-1) 60616000 : ℤ)] =
      nodeDeg T - (T ^ 3 / 467441 - T ^ 4 / 60616000) := by
    have h1 : quo 1 467441 = 0 := by decide
    have h2 : quo (-1) 60616000 = 0 := by decide
    simp only [hornerR, List.foldr, h1, h2, nodeDeg, Int.cast_zero]
    ring
  rw [e] at hk
  unfold Moonposition.Node
  rw [e]
  push_cast
  linarith

theorem perigee_value (jde : ℝ) : let T := J2000Century jde
    ∃ k : ℤ, Moonposition.Perigee jde = deg * (perigeeDeg T - (-T ^ 3 / 80053 + T ^ 4 / 18999000)) + k * (2 * π) := by
  intro T
  obtain ⟨-, -, k, hk⟩ := mod1_eq (deg * hornerR T [83.3532465, 4069.0137287, -0.01032, (quo (-1) 80053 : ℤ), (quo 1 18999000 : ℤ)])
  refine ⟨-k, ?_⟩
  have e : hornerR T [83.3532465, 4069.0137287, -0.01032, (quo (-1) 80053 : ℤ), (quo 1 18999000 : ℤ)] =
      perigeeDeg T - (-T ^ 3 / 80053 + T ^ 4 / 18999000) := by
    have h1 : quo (-1) 80053 = 0 := by decide
    have h2 : quo 1 18999000 = 0 := by decide
    simp only [hornerR, List.foldr, h1, h2, perigeeDeg, Int.cast_zero]
    ring
  rw [e] at hk
  unfold Moonposition.Perigee
  rw [e]
  push_cast
  linarith

/-- C72 is false: ten centuries from 2000 the node differs from that of the series of the book by about .002 degree, and the perigee
by about .012 degree. -/
theorem C72_violation : ∃ jde, Moonposition.Node jde ≠ mod1 (deg * nodeDeg (J2000Century jde)) ∧
    Moonposition.Perigee jde ≠ mod1 (deg * perigeeDeg (J2000Century jde)) := by
  refine ⟨2451545 + 365250, ?_, ?_⟩
  · obtain ⟨k, hk⟩ := node_value (2451545 + 365250)
    obtain ⟨-, -, j, hj⟩ := mod1_eq (deg * nodeDeg (J2000Century (2451545 + 365250)))
    intro h
    rw [h] at hk
    have e : J2000Century (2451545 + 365250) = 10 := by unfold J2000Century; norm_num
    rw [e] at hk hj
    have hpi := pi_pos
    have : deg * (10 ^ 3 / 467441 - 10 ^ 4 / 60616000) = (k + j) * (2 * π) := by linarith
    unfold deg at this
    have h2 : (1 / 180 * (10 ^ 3 / 467441 - 10 ^ 4 / 60616000) / 2 : ℝ) = ((k + j : ℤ) : ℝ) := by
      push_cast
      field_simp at this ⊢
      linarith
    have a1 : (0 : ℝ) < ((k + j : ℤ) : ℝ) := by rw [← h2]; norm_num
    have a2 : ((k + j : ℤ) : ℝ) < 1 := by rw [← h2]; norm_num
    have b1 : 0 < k + j := by exact_mod_cast a1
    have b2 : k + j < 1 := by exact_mod_cast a2
    omega
  · obtain ⟨k, hk⟩ := perigee_value (2451545 + 365250)
    obtain ⟨-, -, j, hj⟩ := mod1_eq (deg * perigeeDeg (J2000Century (2451545 + 365250)))
    intro h
    rw [h] at hk
    have e : J2000Century (2451545 + 365250) = 10 := by unfold J2000Century; norm_num
    rw [e] at hk hj
    have hpi := pi_pos
    have : deg * (-10 ^ 3 / 80053 + 10 ^ 4 / 18999000) = (k + j) * (2 * π) := by linarith
    unfold deg at this
    have h2 : (1 / 180 * (-10 ^ 3 / 80053 + 10 ^ 4 / 18999000) / 2 : ℝ) = ((k + j : ℤ) : ℝ) := by
      push_cast
      field_simp at this ⊢
      linarith
    have a1 : ((k + j : ℤ) : ℝ) < 0 := by rw [← h2]; norm_num
    have a2 : (-1 : ℝ) < ((k + j : ℤ) : ℝ) := by rw [← h2]; norm_num
    have b1 : k + j < 0 := by exact_mod_cast a1
    have b2 : -1 < k + j := by exact_mod_cast a2
    omega

/-- C72, largest part: within two centuries of 2000 the node and the perigee are those of the series up to whole turns and .0001
degree.  Missing: the cubic and quartic terms at remote epochs. -/
theorem C72_near2000_partial (jde : ℝ) (h : |J2000Century jde| ≤ 2) :
    (∃ k : ℤ, |Moonposition.Node jde - deg * nodeDeg (J2000Century jde) + k * (2 * π)| ≤ 0.0001 * deg) ∧
    ∃ k : ℤ, |Moonposition.Perigee jde - deg * perigeeDeg (J2000Century jde) + k * (2 * π)| ≤ 0.0002 * deg := by
  obtain ⟨k, hk⟩ := node_value jde
  obtain ⟨j, hj⟩ := perigee_value jde
  generalize J2000Century jde = T at *
  obtain ⟨t1, t2⟩ := abs_le.1 h
  have hd : 0 < deg := by unfold deg; positivity
  have q0 : 0 ≤ T ^ 2 := sq_nonneg T
  have q1 : T ^ 2 ≤ 4 := by nlinarith
  have c1 : T ^ 3 ≤ 8 := by nlinarith [mul_nonneg q0 (by linarith : 0 ≤ 2 - T)]
  have c0 : -8 ≤ T ^ 3 := by nlinarith [mul_nonneg q0 (by linarith : 0 ≤ 2 + T)]
  have f0 : 0 ≤ T ^ 4 := by positivity
  have f1 : T ^ 4 ≤ 16 := by nlinarith
  refine ⟨⟨-k, ?_⟩, -j, ?_⟩
  · rw [hk, abs_le]
    push_cast
    constructor <;> nlinarith
  · rw [hj, abs_le]
    push_cast
    constructor <;> nlinarith

/-- C73 is false: the constant is 2 seconds of arc, not 2.396. -/
theorem C73_violation : Semidiameter.Moon = 2 * (π / 180 / 3600) ∧
    |Semidiameter.Moon - 358473400 / 149597870 * (π / 180 / 3600)| > 0.39 * (π / 180 / 3600) := by
  have h : Semidiameter.Moon = 2 * (π / 180 / 3600) := by
    have : quo 358473400 Semidiameter.AU = 2 := by decide
    unfold Semidiameter.Moon Semidiameter.arcsec
    rw [this]
    norm_num
  refine ⟨h, ?_⟩
  rw [h]
  have hp := pi_pos
  rw [abs_of_neg (by nlinarith)]
  nlinarith

/-- C73, consequence: at the Moon's mean distance of 384400 km the semidiameter is below 13′ (it is 15.5′). -/
theorem C73_violation_mean : Semidiameter.Semidiameter Semidiameter.Moon (384400 / 149597870) < 13 * (π / 180 / 60) := by
  rw [C73_violation.1]
  unfold Semidiameter.Semidiameter
  have hp := pi_pos
  rw [div_lt_iff₀ (by norm_num)]
  nlinarith

/-! C74: magnitudes -/

theorem pow10_pos (x : ℝ) : (0 : ℝ) < (10 : ℝ) ^ x := rpow_pos_of_pos (by norm_num) x

theorem log10_pow (x : ℝ) : log10 ((10 : ℝ) ^ x) = x := logb_rpow (by norm_num) (by norm_num)

theorem foldl_flux (m : List ℝ) (s : ℝ) :
    m.foldl (fun s mi => s + (10 : ℝ) ^ (-0.4 * mi)) s = s + (m.map fun mi => (10 : ℝ) ^ (-0.4 * mi)).sum := by
  induction m generalizing s with
  | nil => simp
  | cons a l ih => rw [List.foldl_cons, ih, List.map_cons, List.sum_cons, add_assoc]

/-- C74: the combined magnitude of several stars is the magnitude of the sum of their fluxes. -/
theorem C74_sumN_flux (m : List ℝ) (hm : m ≠ []) :
    (10 : ℝ) ^ (-0.4 * Stellar.SumN m) = (m.map fun mi => (10 : ℝ) ^ (-0.4 * mi)).sum := by
  unfold Stellar.SumN log10
  rw [foldl_flux, zero_add]
  have hp : 0 < (m.map fun mi => (10 : ℝ) ^ (-0.4 * mi)).sum := by
    refine List.sum_pos _ ?_ (by simpa using hm)
    intro x hx
    obtain ⟨y, -, rfl⟩ := List.mem_map.1 hx
    exact pow10_pos _
  rw [show (-0.4 : ℝ) * (-2.5 * logb 10 (m.map fun mi => (10 : ℝ) ^ (-0.4 * mi)).sum) = logb 10 (m.map fun mi => (10 : ℝ) ^ (-0.4 * mi)).sum by ring]
  exact rpow_logb (by norm_num) (by norm_num) hp

/-- C74: `Sum` is `SumN` of two stars. -/
theorem C74_sum_two (m1 m2 : ℝ) : Stellar.Sum m1 m2 = Stellar.SumN [m1, m2] := by
  unfold Stellar.Sum Stellar.SumN
  simp only [List.foldl, zero_add]
  have e : (10 : ℝ) ^ (-0.4 * m1) + (10 : ℝ) ^ (-0.4 * m2) = (10 : ℝ) ^ (-0.4 * m2) * ((10 : ℝ) ^ (0.4 * (m2 - m1)) + 1) := by
    rw [mul_add, ← rpow_add (by norm_num), mul_one]
    congr 2
    ring
  rw [e]
  have hs : log10 ((10 : ℝ) ^ (-0.4 * m2) * ((10 : ℝ) ^ (0.4 * (m2 - m1)) + 1)) =
      -0.4 * m2 + log10 ((10 : ℝ) ^ (0.4 * (m2 - m1)) + 1) := by
    have h1 := pow10_pos (-0.4 * m2)
    have h2 := pow10_pos (0.4 * (m2 - m1))
    rw [log10, logb_mul h1.ne' (by linarith), ← log10, log10_pow]
    rfl
  rw [hs]
  ring

/-- C74: the order of the stars does not matter. -/
theorem C74_sumN_perm (m n : List ℝ) (h : m.Perm n) : Stellar.SumN m = Stellar.SumN n := by
  unfold Stellar.SumN
  rw [foldl_flux, foldl_flux, (h.map _).sum_eq]

theorem C74_sum_comm (m1 m2 : ℝ) : Stellar.Sum m1 m2 = Stellar.Sum m2 m1 := by
  rw [C74_sum_two, C74_sum_two]
  exact C74_sumN_perm _ _ (List.Perm.swap _ _ _)

/-- C74: the combination of two or more stars is brighter (has smaller magnitude) than each. -/
theorem C74_brighter (m : List ℝ) (h2 : 2 ≤ m.length) (x : ℝ) (hx : x ∈ m) : Stellar.SumN m < x := by
  obtain ⟨l, hl⟩ : ∃ l, m.Perm (x :: l) := by
    obtain ⟨a, b, rfl⟩ := List.append_of_mem hx
    exact ⟨a ++ b, List.perm_middle⟩
  have hlen := hl.length_eq
  have hne : l ≠ [] := by
    rintro rfl
    simp at hlen
    omega
  have hf := C74_sumN_flux (x :: l) (by simp)
  rw [C74_sumN_perm _ _ hl]
  rw [List.map_cons, List.sum_cons] at hf
  have hp : 0 < (l.map fun mi => (10 : ℝ) ^ (-0.4 * mi)).sum := by
    refine List.sum_pos _ ?_ (by simpa using hne)
    intro y hy
    obtain ⟨z, -, rfl⟩ := List.mem_map.1 hy
    exact pow10_pos _
  have : (10 : ℝ) ^ (-0.4 * x) < (10 : ℝ) ^ (-0.4 * Stellar.SumN (x :: l)) := by linarith
  rw [rpow_lt_rpow_left_iff (by norm_num)] at this
  linarith

/-- C74: `Ratio` and `Difference` are inverse to each other. -/
theorem C74_ratio_difference (m1 m2 : ℝ) : Stellar.Difference (Stellar.Ratio m1 m2) = m2 - m1 := by
  unfold Stellar.Difference Stellar.Ratio
  rw [log10_pow]
  ring

theorem C74_difference_ratio (m r : ℝ) (hr : 0 < r) : Stellar.Ratio m (m + Stellar.Difference r) = r := by
  unfold Stellar.Difference Stellar.Ratio log10
  dsimp only
  rw [show 0.4 * (m + 2.5 * logb 10 r - m) = logb 10 r by ring]
  exact rpow_logb (by norm_num) (by norm_num) hr

/-- C74: a star d parsecs away has a parallax of 1/d seconds; both functions give its magnitude as it would be at ten parsecs, where
the flux is (d/10)² times as great. -/
theorem C74_absolute (m d : ℝ) (hd : 0 < d) :
    Stellar.AbsoluteByParallax m (1 / d) = Stellar.AbsoluteByDistance m d ∧
    Stellar.Ratio (Stellar.AbsoluteByDistance m d) m = (d / 10) ^ 2 := by
  constructor
  · unfold Stellar.AbsoluteByParallax Stellar.AbsoluteByDistance log10
    rw [one_div, logb_inv]
    ring
  · unfold Stellar.AbsoluteByDistance Stellar.Ratio log10
    dsimp only
    have h10 : (0 : ℝ) < d / 10 := by positivity
    rw [show 0.4 * (m - (m + 5 - 5 * logb 10 d)) = (logb 10 d - logb 10 10) * 2 by rw [logb_self_eq_one (by norm_num)]; ring,
      ← logb_div hd.ne' (by norm_num), rpow_mul (by norm_num), rpow_logb (by norm_num) (by norm_num) h10]
    norm_num

/-! C95: the phase angle of the Moon -/

theorem elongation_bounds (α α0 δ δ0 : ℝ) : -1 ≤ Moonillum.cψEq α α0 δ δ0 ∧ Moonillum.cψEq α α0 δ δ0 ≤ 1 := by
  have h := abs_real_inner_le_norm (dir α0 δ0) (dir α δ)
  rw [norm_dir, norm_dir, inner_dir, mul_one] at h
  have e : Moonillum.cψEq α α0 δ δ0 = cos δ0 * cos δ * cos (α0 - α) + sin δ0 * sin δ := by unfold Moonillum.cψEq; ring
  rw [e]
  have h' := abs_le.1 h
  constructor <;> linarith

/-- `pa` as an arc cosine. -/
theorem pa_eq {Δ R c : ℝ} (hR : 0 ≤ R) (hc : -1 ≤ c) (hc' : c ≤ 1) (hd : Δ ^ 2 - 2 * Δ * R * c + R ^ 2 ≠ 0) :
    Moonillum.pa Δ R c = arccos ((Δ - R * c) / √(Δ ^ 2 - 2 * Δ * R * c + R ^ 2)) := by
  unfold Moonillum.pa atan2
  dsimp only
  have hs := sin_arccos c
  have hsq : sin (arccos c) ^ 2 = 1 - c ^ 2 := by
    rw [hs, sq_sqrt]
    nlinarith
  have s0 : 0 ≤ sin (arccos c) := by rw [hs]; exact sqrt_nonneg _
  have hn : ‖(⟨Δ - R * c, R * sin (arccos c)⟩ : ℂ)‖ = √(Δ ^ 2 - 2 * Δ * R * c + R ^ 2) := by
    rw [Complex.norm_def, Complex.normSq_apply]
    congr 1
    dsimp only
    linear_combination R ^ 2 * hsq
  have hz : (⟨Δ - R * c, R * sin (arccos c)⟩ : ℂ) ≠ 0 := by
    intro h
    rw [h, norm_zero] at hn
    have h0 : Δ ^ 2 - 2 * Δ * R * c + R ^ 2 ≤ 0 := by
      by_contra hcon
      have := sqrt_pos.2 (not_le.1 hcon)
      linarith
    have h1 : 0 ≤ Δ ^ 2 - 2 * Δ * R * c + R ^ 2 := by nlinarith [sq_nonneg (Δ - R * c), mul_nonneg (sq_nonneg R) (by nlinarith : 0 ≤ 1 - c ^ 2)]
    exact hd (le_antisymm h0 h1)
  rw [Complex.arg_of_im_nonneg_of_ne_zero (mul_nonneg hR s0) hz, hn]

/-- C95: `PhaseAngleEq` is the angle at the Moon between the Earth and the Sun. -/
theorem C95_geometry (α δ Δ α0 δ0 R : ℝ) (hΔ : 0 < Δ) (hR : 0 ≤ R) (M S : V3) (hM : M = Δ • dir α δ) (hS : S = R • dir α0 δ0)
    (hd : M ≠ S) :
    Moonillum.PhaseAngleEq α δ Δ α0 δ0 R = InnerProductGeometry.angle (0 - M) (S - M) := by
  have nM : ‖M‖ = Δ := by rw [hM, norm_smul, norm_dir, Real.norm_of_nonneg hΔ.le, mul_one]
  have nS : ‖S‖ = R := by rw [hS, norm_smul, norm_dir, Real.norm_of_nonneg hR, mul_one]
  have hMS : inner ℝ M S = Δ * R * Moonillum.cψEq α α0 δ δ0 := by
    rw [hM, hS, inner_smul_left, inner_smul_right, inner_dir]
    unfold Moonillum.cψEq
    rw [← cos_neg (α0 - α), neg_sub]
    simp
    ring
  have hsq : ‖M - S‖ ^ 2 = Δ ^ 2 - 2 * Δ * R * Moonillum.cψEq α α0 δ δ0 + R ^ 2 := by
    rw [norm_sub_sq_real, nM, nS, hMS]; ring
  have hn : 0 < ‖M - S‖ := norm_pos_iff.2 (sub_ne_zero.2 hd)
  unfold Moonillum.PhaseAngleEq
  have hb := elongation_bounds α α0 δ δ0
  rw [pa_eq hR hb.1 hb.2 (by rw [← hsq]; positivity), zero_sub, ← neg_sub M S, InnerProductGeometry.angle_neg_neg]
  unfold InnerProductGeometry.angle
  rw [← hsq, sqrt_sq hn.le, nM, inner_sub_right, real_inner_self_eq_norm_sq, nM, hMS]
  congr 1
  have h1 := hΔ.ne'
  have h2 := hn.ne'
  field_simp

/-- C95: the ecliptic versions are the equatorial ones with the Sun on the fundamental circle. -/
theorem C95_ecliptic (lam β Δ lam0 R : ℝ) : Moonillum.PhaseAngleEcl lam β Δ lam0 R = Moonillum.PhaseAngleEq lam β Δ lam0 0 R ∧
    Moonillum.PhaseAngleEcl2 lam β lam0 = Moonillum.PhaseAngleEq2 lam β lam0 0 := by
  have e : Moonillum.cψEcl lam β lam0 = Moonillum.cψEq lam lam0 β 0 := by
    unfold Moonillum.cψEcl Moonillum.cψEq
    rw [sin_zero, cos_zero, ← cos_neg (lam0 - lam), neg_sub]
    ring
  unfold Moonillum.PhaseAngleEcl Moonillum.PhaseAngleEq Moonillum.PhaseAngleEcl2 Moonillum.PhaseAngleEq2
  rw [e]
  exact ⟨rfl, rfl⟩

/-- C95: the approximate phase angle is too large by the angle at the Sun, at most arcsin (Δ/R). -/
theorem C95_approximation (α δ Δ α0 δ0 R : ℝ) (hΔ : 0 < Δ) (hR : Δ < R) :
    0 ≤ Moonillum.PhaseAngleEq2 α δ α0 δ0 - Moonillum.PhaseAngleEq α δ Δ α0 δ0 R ∧
    Moonillum.PhaseAngleEq2 α δ α0 δ0 - Moonillum.PhaseAngleEq α δ Δ α0 δ0 R ≤ arcsin (Δ / R) := by
  have hR0 : 0 < R := by linarith
  set M : V3 := Δ • dir α δ with hM
  set S : V3 := R • dir α0 δ0 with hS
  have nM : ‖M‖ = Δ := by rw [hM, norm_smul, norm_dir, Real.norm_of_nonneg hΔ.le, mul_one]
  have nS : ‖S‖ = R := by rw [hS, norm_smul, norm_dir, Real.norm_of_nonneg hR0.le, mul_one]
  have hd : M ≠ S := by
    intro h
    rw [h, nS] at nM
    linarith
  have hM0 : M ≠ 0 := by
    intro h
    rw [h, norm_zero] at nM
    linarith
  have hg := C95_geometry α δ Δ α0 δ0 R hΔ hR0.le M S hM hS hd
  rw [zero_sub, ← neg_sub M S, InnerProductGeometry.angle_neg_neg] at hg
  have hMS : inner ℝ S M = Δ * R * Moonillum.cψEq α α0 δ δ0 := by
    rw [hM, hS, inner_smul_left, inner_smul_right, inner_dir]
    unfold Moonillum.cψEq
    simp
    ring
  have h2 : Moonillum.PhaseAngleEq2 α δ α0 δ0 = π - InnerProductGeometry.angle S M := by
    unfold Moonillum.PhaseAngleEq2 InnerProductGeometry.angle
    rw [arccos_neg, hMS, nM, nS]
    congr 2
    field_simp
  have hsum := InnerProductGeometry.angle_add_angle_sub_add_angle_sub_eq_pi S hM0
  have hdiff : Moonillum.PhaseAngleEq2 α δ α0 δ0 - Moonillum.PhaseAngleEq α δ Δ α0 δ0 R = InnerProductGeometry.angle S (S - M) := by
    rw [h2, hg]
    linarith
  rw [hdiff]
  refine ⟨InnerProductGeometry.angle_nonneg _ _, ?_⟩
  have hn : 0 < ‖S - M‖ := norm_pos_iff.2 (sub_ne_zero.2 hd.symm)
  have hcos : 0 < inner ℝ S (S - M) := by
    rw [inner_sub_right, real_inner_self_eq_norm_sq, nS, hMS]
    have := (elongation_bounds α α0 δ δ0).2
    nlinarith [mul_pos hΔ hR0, mul_nonneg (mul_pos hΔ hR0).le (sub_nonneg.2 this)]
  -- the cosine is √(1 - sin²)
  have hc : √(1 - (Δ / R) ^ 2) ≤ inner ℝ S (S - M) / (‖S‖ * ‖S - M‖) := by
    rw [nS]
    apply Real.sqrt_le_iff.2
    constructor
    · positivity
    · rw [div_pow, div_pow, le_div_iff₀ (by positivity), mul_pow]
      have e1 : ‖S - M‖ ^ 2 = R ^ 2 - 2 * inner ℝ S M + Δ ^ 2 := by rw [norm_sub_sq_real, nS, nM]
      have e2 : inner ℝ S (S - M) = R ^ 2 - inner ℝ S M := by rw [inner_sub_right, real_inner_self_eq_norm_sq, nS]
      rw [e1, e2]
      have : (1 - Δ ^ 2 / R ^ 2) * (R ^ 2 * (R ^ 2 - 2 * inner ℝ S M + Δ ^ 2)) =
          (R ^ 2 - Δ ^ 2) * (R ^ 2 - 2 * inner ℝ S M + Δ ^ 2) := by field_simp
      rw [this]
      nlinarith [sq_nonneg (inner ℝ S M - Δ ^ 2)]
  have hlt : Δ / R < 1 := by rw [div_lt_one hR0]; exact hR
  have h0 : 0 ≤ Δ / R := by positivity
  unfold InnerProductGeometry.angle
  calc arccos (inner ℝ S (S - M) / (‖S‖ * ‖S - M‖)) ≤ arccos (√(1 - (Δ / R) ^ 2)) := antitone_arccos hc
    _ = arcsin (Δ / R) := (arcsin_eq_arccos h0).symm

/-- A case of `C95_geometry`: the Moon a quarter turn from a Sun 400 times as far. -/
example : (400 : ℝ) • dir 0 0 ≠ (1 : ℝ) • dir (π / 2) 0 := by
  intro h
  have := congrArg (fun v => ‖v‖) h
  simp only [norm_smul, norm_dir] at this
  norm_num at this

/-- C96: the limb angle is in [0, 2π) and is the position angle, from north through east, of the direction of the Sun as seen from
the body on the sphere. -/
theorem C96_limb (α δ α0 δ0 : ℝ) :
    (0 ≤ Limb α δ α0 δ0 ∧ Limb α δ α0 δ0 < 2 * π) ∧
    perp (dir α δ) (dir α0 δ0) =
      ‖perp (dir α δ) (dir α0 δ0)‖ • (sin (Limb α δ α0 δ0) • east α + cos (Limb α δ α0 δ0) • north α δ) := by
  have hpi := pi_pos
  have hr := atan2_range (cos δ0 * sin (α0 - α)) (sin δ0 * cos δ - cos δ0 * sin δ * cos (α0 - α))
  obtain ⟨p1, p2⟩ := atan2_polar (cos δ0 * sin (α0 - α)) (sin δ0 * cos δ - cos δ0 * sin δ * cos (α0 - α))
  have hsc : sin (Limb α δ α0 δ0) = sin (atan2 (cos δ0 * sin (α0 - α)) (sin δ0 * cos δ - cos δ0 * sin δ * cos (α0 - α))) ∧
      cos (Limb α δ α0 δ0) = cos (atan2 (cos δ0 * sin (α0 - α)) (sin δ0 * cos δ - cos δ0 * sin δ * cos (α0 - α))) := by
    unfold Limb
    dsimp only
    split_ifs
    · rw [sin_add_two_pi, cos_add_two_pi]; exact ⟨rfl, rfl⟩
    · exact ⟨rfl, rfl⟩
  constructor
  · unfold Limb
    dsimp only
    split_ifs with h
    · constructor <;> linarith
    · push Not at h
      constructor <;> linarith
  rw [hsc.1, hsc.2]
  set t := atan2 (cos δ0 * sin (α0 - α)) (sin δ0 * cos δ - cos δ0 * sin δ * cos (α0 - α))
  set X := cos δ0 * sin (α0 - α) with hX
  set Y := sin δ0 * cos δ - cos δ0 * sin δ * cos (α0 - α) with hY
  have hv : perp (dir α δ) (dir α0 δ0) = X • east α + Y • north α δ := by
    unfold dir east north
    rw [perp_vec, hX, hY, sin_sub, cos_sub]
    have e1 := sin_sq_add_cos_sq α
    have e2 := sin_sq_add_cos_sq δ
    ext i
    fin_cases i <;> simp
    · clear * - e1 e2; grind
    · clear * - e1 e2; grind
    · clear * - e1 e2; grind
  have hnorm : ‖perp (dir α δ) (dir α0 δ0)‖ = √(Y ^ 2 + X ^ 2) := by
    rw [hv, EuclideanSpace.norm_eq]
    congr 1
    unfold east north
    have e1 := sin_sq_add_cos_sq α
    have e2 := sin_sq_add_cos_sq δ
    clear * - e1 e2
    simp [Fin.sum_univ_three]
    grind
  rw [hnorm, smul_add, smul_smul, smul_smul, p1, p2, hv]

/-! C97: the approximate fraction for Venus -/

/-- C97 is false: at a superior conjunction `FractionVenus` exceeds 1. -/
theorem C97_violation : ∃ jde, 1 < Illum.FractionVenus jde := by
  have hd : 0 < deg := by unfold deg; positivity
  let W : ℝ → ℝ := fun T => 261.51 * deg + 22518.443 * deg * T + 1.91 * deg * sin (177.53 * deg + 35999.05 * deg * T) +
    0.78 * deg * sin (50.42 * deg + 58517.811 * deg * T)
  have hc : Continuous W := by fun_prop
  have hneg : W (-1) < 0 := by
    show _ + _ + _ + _ < _
    have h1 := sin_le_one (177.53 * deg + 35999.05 * deg * (-1))
    have h2 := sin_le_one (50.42 * deg + 58517.811 * deg * (-1))
    nlinarith [mul_le_mul_of_nonneg_left h1 hd.le, mul_le_mul_of_nonneg_left h2 hd.le]
  have hpos : 0 < W 0 := by
    show _ < _ + _ + _ + _
    have h1 := neg_one_le_sin (177.53 * deg + 35999.05 * deg * 0)
    have h2 := neg_one_le_sin (50.42 * deg + 58517.811 * deg * 0)
    nlinarith [mul_le_mul_of_nonneg_left h1 hd.le, mul_le_mul_of_nonneg_left h2 hd.le]
  obtain ⟨T, hT⟩ := mem_range_of_exists_le_of_exists_ge hc ⟨-1, hneg.le⟩ ⟨0, hpos.le⟩
  refine ⟨2451545 + 36525 * T, ?_⟩
  have hJ : J2000Century (2451545 + 36525 * T) = T := by unfold J2000Century; ring
  unfold Illum.FractionVenus
  dsimp only
  rw [hJ]
  have hW : 261.51 * deg + 22518.443 * deg * T + 1.91 * deg * sin (177.53 * deg + 35999.05 * deg * T) +
    0.78 * deg * sin (50.42 * deg + 58517.811 * deg * T) = 0 := hT
  rw [hW, cos_zero]
  have hs : (1.72333 : ℝ) < √(1.52321 + 1.44666 * 1) := by
    apply lt_sqrt_of_sq_lt
    norm_num
  generalize √(1.52321 + 1.44666 * 1) = D at *
  rw [div_div, lt_div_iff₀ (by positivity)]
  nlinarith

/-- C97, largest part: the value is in [0, 1.000001] for every instant.  Missing: the excess over 1. -/
theorem C97_range_partial (jde : ℝ) : 0 ≤ Illum.FractionVenus jde ∧ Illum.FractionVenus jde ≤ 1.000001 := by
  unfold Illum.FractionVenus
  dsimp only
  generalize 261.51 * deg + 22518.443 * deg * J2000Century jde + 1.91 * deg * sin (177.53 * deg + 35999.05 * deg * J2000Century jde) +
    0.78 * deg * sin (50.42 * deg + 58517.811 * deg * J2000Century jde) = W
  have c0 := neg_one_le_cos W
  have c1 := cos_le_one W
  have h1 : (0.27667 : ℝ) ≤ √(1.52321 + 1.44666 * cos W) := by
    apply le_sqrt_of_sq_le
    norm_num
    linarith
  have h2 : √(1.52321 + 1.44666 * cos W) ≤ (1.723332 : ℝ) := by
    rw [sqrt_le_left (by norm_num)]
    norm_num
    linarith
  generalize √(1.52321 + 1.44666 * cos W) = D at *
  have hD : 0 < D := by linarith
  rw [div_div]
  constructor
  · apply div_nonneg
    · nlinarith
    · positivity
  · rw [div_le_iff₀ (by positivity)]
    nlinarith [mul_nonneg (sub_nonneg.2 h1) (sub_nonneg.2 h2)]

/-- C98: the apparent polar semidiameter of Saturn lies between the polar and the equatorial ones at the same distance; it is the
polar one seen from the plane of the ring and the equatorial one seen along the axis. -/
theorem C98_saturn (Δ B : ℝ) (hΔ : 0 < Δ) :
    Semidiameter.Semidiameter Semidiameter.SaturnPolar Δ ≤ Semidiameter.SaturnApparentPolar Δ B ∧
    Semidiameter.SaturnApparentPolar Δ B ≤ Semidiameter.Semidiameter Semidiameter.SaturnEquatorial Δ ∧
    (Semidiameter.SaturnApparentPolar Δ B) ^ 2 =
      (Semidiameter.Semidiameter Semidiameter.SaturnPolar Δ * cos B) ^ 2 + (Semidiameter.Semidiameter Semidiameter.SaturnEquatorial Δ * sin B) ^ 2 := by
  have ha : 0 < Semidiameter.arcsec := by unfold Semidiameter.arcsec; positivity
  have hE : 0 < Semidiameter.SaturnEquatorial := by unfold Semidiameter.SaturnEquatorial; positivity
  have hk : Semidiameter.SaturnPolar / Semidiameter.SaturnEquatorial = 73.82 / 82.73 := by
    unfold Semidiameter.SaturnPolar Semidiameter.SaturnEquatorial
    field_simp
  have hP : Semidiameter.SaturnPolar = Semidiameter.SaturnEquatorial * (73.82 / 82.73) := by
    rw [← hk]; field_simp
  have hsc := sin_sq_add_cos_sq B
  unfold Semidiameter.SaturnApparentPolar Semidiameter.Semidiameter
  dsimp only
  rw [hk, hP]
  have hin : 1 - (1 - 73.82 / 82.73 * (73.82 / 82.73)) * cos B * cos B = (73.82 / 82.73) ^ 2 * cos B ^ 2 + sin B ^ 2 := by
    linear_combination -hsc
  rw [hin]
  have hlo : 73.82 / 82.73 ≤ √((73.82 / 82.73) ^ 2 * cos B ^ 2 + sin B ^ 2) := by
    apply le_sqrt_of_sq_le
    nlinarith [sq_nonneg (sin B), sq_nonneg (cos B)]
  have hhi : √((73.82 / 82.73) ^ 2 * cos B ^ 2 + sin B ^ 2) ≤ 1 := by
    rw [sqrt_le_left (by norm_num)]
    nlinarith [sq_nonneg (sin B), sq_nonneg (cos B)]
  have hsq := sq_sqrt (by positivity : 0 ≤ (73.82 / 82.73) ^ 2 * cos B ^ 2 + sin B ^ 2)
  generalize √((73.82 / 82.73) ^ 2 * cos B ^ 2 + sin B ^ 2) = q at *
  refine ⟨?_, ?_, ?_⟩
  · rw [mul_div_assoc]
    exact mul_le_mul_of_nonneg_left (div_le_div_of_nonneg_right hlo hΔ.le) hE.le
  · have e : Semidiameter.SaturnEquatorial / Δ = Semidiameter.SaturnEquatorial * (1 / Δ) := by ring
    rw [e]
    exact mul_le_mul_of_nonneg_left (div_le_div_of_nonneg_right hhi hΔ.le) hE.le
  · rw [mul_pow, div_pow, hsq]
    ring

end Verif.Props
