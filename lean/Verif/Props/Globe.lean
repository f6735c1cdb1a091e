import Verif.Model.Globe
import Verif.Lemmas.Sphere
import Mathlib.Analysis.SpecialFunctions.Trigonometric.Deriv
import Mathlib.Analysis.Real.Pi.Bounds

import Mathlib.Analysis.SpecialFunctions.Integrals.Basic
import Mathlib.MeasureTheory.Integral.IntervalIntegral.FundThmCalculus
import Mathlib.Tactic

/-! Properties C49, C50: the Earth's globe. -/

namespace Verif.Props

open Real Verif.Spec Verif.Go Verif.Model.Globe Verif.Lemmas

theorem parallaxU (f φ : ℝ) (hf : f < 1) (hφ : 0 < cos φ) :
    0 < sqrt (cos φ ^ 2 + (1 - f) ^ 2 * sin φ ^ 2) ∧
    cos (arctan ((1 - f) * tan φ)) = cos φ / sqrt (cos φ ^ 2 + (1 - f) ^ 2 * sin φ ^ 2) ∧
    sin (arctan ((1 - f) * tan φ)) = (1 - f) * sin φ / sqrt (cos φ ^ 2 + (1 - f) ^ 2 * sin φ ^ 2) := by
  have hp : 0 < cos φ ^ 2 + (1 - f) ^ 2 * sin φ ^ 2 := by positivity
  have hs := sqrt_pos.2 hp
  have h1 : 1 + ((1 - f) * tan φ) ^ 2 = (cos φ ^ 2 + (1 - f) ^ 2 * sin φ ^ 2) / cos φ ^ 2 := by
    rw [tan_eq_sin_div_cos]; field_simp
  have h2 : sqrt (1 + ((1 - f) * tan φ) ^ 2) = sqrt (cos φ ^ 2 + (1 - f) ^ 2 * sin φ ^ 2) / cos φ := by
    rw [h1, sqrt_div' _ (sq_nonneg _), sqrt_sq hφ.le]
  refine ⟨hs, ?_, ?_⟩
  · rw [cos_arctan, h2]; field_simp
  · rw [sin_arctan, h2, tan_eq_sin_div_cos]; field_simp

/-- C49.  At height 0 the point is on the meridian ellipse with semi-axes 1 and 1 - f; its outward normal has the direction of
the geographic latitude; and its distance from the axis is RadiusAtLatitude in units of the equatorial radius. -/
theorem C49_parallaxConstants (e : Ellipsoid) (φ : ℝ) (hEr : 0 < e.Er) (hf : e.Fl < 1) (hφ : 0 < cos φ) :
    let s := (e.ParallaxConstants φ 0).1
    let c := (e.ParallaxConstants φ 0).2
    c ^ 2 + (s / (1 - e.Fl)) ^ 2 = 1 ∧
    (∃ k, 0 < k ∧ 2 * c = k * cos φ ∧ 2 * s / (1 - e.Fl) ^ 2 = k * sin φ) ∧
    e.Er * c = e.RadiusAtLatitude φ := by
  obtain ⟨hs, hc, hsn⟩ := parallaxU e.Fl φ hf hφ
  have hb : 0 < 1 - e.Fl := by linarith
  have hsq : sqrt (cos φ ^ 2 + (1 - e.Fl) ^ 2 * sin φ ^ 2) ^ 2 = cos φ ^ 2 + (1 - e.Fl) ^ 2 * sin φ ^ 2 := sq_sqrt (by positivity)
  have hrad : 1 - (2 - e.Fl) * e.Fl * sin φ * sin φ = cos φ ^ 2 + (1 - e.Fl) ^ 2 * sin φ ^ 2 := by
    linear_combination -(sin_sq_add_cos_sq φ)
  dsimp only [Ellipsoid.ParallaxConstants]
  rw [hc, hsn, Ellipsoid.RadiusAtLatitude, hrad]
  set R := sqrt (cos φ ^ 2 + (1 - e.Fl) ^ 2 * sin φ ^ 2)
  clear_value R
  simp only [zero_mul, zero_div, add_zero]
  refine ⟨?_, ⟨2 / R, by positivity, ?_, ?_⟩, ?_⟩
  · field_simp; linear_combination -hsq
  · field_simp
  · field_simp
  · unfold Ellipsoid.A; field_simp

/-- C49.  At height h metres the point is h metres further along the normal. -/
theorem C49_height (e : Ellipsoid) (φ h : ℝ) (hEr : 0 < e.Er) :
    e.Er * 1000 * ((e.ParallaxConstants φ h).1 - (e.ParallaxConstants φ 0).1) = h * sin φ ∧
    e.Er * 1000 * ((e.ParallaxConstants φ h).2 - (e.ParallaxConstants φ 0).2) = h * cos φ := by
  dsimp only [Ellipsoid.ParallaxConstants]
  constructor <;> field_simp <;> ring

example : Earth76.Fl < 1 ∧ 0 < cos (1 : ℝ) := by
  refine ⟨by unfold Earth76; norm_num, cos_pos_of_mem_Ioo ⟨?_, ?_⟩⟩ <;> linarith [pi_gt_three]

/-- C49.  The radius of curvature of the meridian is the derivative of arc length by latitude: the velocity of the point of the
ellipse, as the latitude changes, is RadiusOfCurvature / Er times the northward tangent. -/
theorem C49_radiusOfCurvature (e : Ellipsoid) (φ : ℝ) (hEr : 0 < e.Er) (hf : e.Fl < 1) (hφ : 0 < cos φ) :
    HasDerivAt (fun x => e.Er * (e.ParallaxConstants x 0).2) (-(e.RadiusOfCurvature φ) * sin φ) φ ∧
    HasDerivAt (fun x => e.Er * (e.ParallaxConstants x 0).1) (e.RadiusOfCurvature φ * cos φ) φ := by
  have hp : 0 < cos φ ^ 2 + (1 - e.Fl) ^ 2 * sin φ ^ 2 := by
    have : 0 < 1 - e.Fl := by linarith
    positivity
  have hb : 0 < 1 - e.Fl := by linarith
  have hcs := sin_sq_add_cos_sq φ
  -- near φ the constants have the closed form
  have hev : ∀ᶠ x in nhds φ, 0 < cos x := continuous_cos.continuousAt.eventually (lt_mem_nhds hφ)
  have eq1 : (fun x => e.Er * (e.ParallaxConstants x 0).2) =ᶠ[nhds φ]
      fun x => e.Er * (cos x / sqrt (cos x ^ 2 + (1 - e.Fl) ^ 2 * sin x ^ 2)) := by
    filter_upwards [hev] with x hx
    obtain ⟨-, hc, -⟩ := parallaxU e.Fl x hf hx
    dsimp only [Ellipsoid.ParallaxConstants]
    rw [hc]; ring
  have eq2 : (fun x => e.Er * (e.ParallaxConstants x 0).1) =ᶠ[nhds φ]
      fun x => e.Er * ((1 - e.Fl) ^ 2 * (sin x / sqrt (cos x ^ 2 + (1 - e.Fl) ^ 2 * sin x ^ 2))) := by
    filter_upwards [hev] with x hx
    obtain ⟨-, -, hc⟩ := parallaxU e.Fl x hf hx
    dsimp only [Ellipsoid.ParallaxConstants]
    rw [hc]; ring
  have hR : HasDerivAt (fun x => sqrt (cos x ^ 2 + (1 - e.Fl) ^ 2 * sin x ^ 2))
      ((2 * cos φ * (-sin φ) + (1 - e.Fl) ^ 2 * (2 * sin φ * cos φ)) / (2 * sqrt (cos φ ^ 2 + (1 - e.Fl) ^ 2 * sin φ ^ 2))) φ := by
    refine HasDerivAt.sqrt ?_ hp.ne'
    have h1 := (hasDerivAt_cos φ).pow 2
    have h2 := ((hasDerivAt_sin φ).pow 2).const_mul ((1 - e.Fl) ^ 2)
    refine (h1.add h2).congr_deriv ?_
    push_cast; ring
  have hRp := sqrt_pos.2 hp
  have hRR : sqrt (cos φ ^ 2 + (1 - e.Fl) ^ 2 * sin φ ^ 2) ^ 2 = cos φ ^ 2 + (1 - e.Fl) ^ 2 * sin φ ^ 2 := sq_sqrt hp.le
  have hcurv : e.RadiusOfCurvature φ = e.Er * (1 - e.Fl) ^ 2 / sqrt (cos φ ^ 2 + (1 - e.Fl) ^ 2 * sin φ ^ 2) ^ 3 := by
    unfold Ellipsoid.RadiusOfCurvature Ellipsoid.A
    dsimp only
    have h1 : 1 - (2 - e.Fl) * e.Fl * sin φ * sin φ = cos φ ^ 2 + (1 - e.Fl) ^ 2 * sin φ ^ 2 := by
      linear_combination -hcs
    rw [h1]
    have h2 : (cos φ ^ 2 + (1 - e.Fl) ^ 2 * sin φ ^ 2) ^ (1.5 : ℝ) = sqrt (cos φ ^ 2 + (1 - e.Fl) ^ 2 * sin φ ^ 2) ^ 3 := by
      generalize cos φ ^ 2 + (1 - e.Fl) ^ 2 * sin φ ^ 2 = X at hp
      rw [sqrt_eq_rpow, ← rpow_natCast, ← rpow_mul hp.le]; norm_num
    rw [h2]; congr 1; ring
  constructor
  · refine HasDerivAt.congr_of_eventuallyEq ?_ eq1
    refine (((hasDerivAt_cos φ).div hR hRp.ne').const_mul e.Er).congr_deriv ?_
    rw [hcurv]
    generalize sqrt (cos φ ^ 2 + (1 - e.Fl) ^ 2 * sin φ ^ 2) = R at *
    field_simp
    linear_combination (-sin φ) * hRR - sin φ * (1 - e.Fl) ^ 2 * hcs
  · refine HasDerivAt.congr_of_eventuallyEq ?_ eq2
    refine ((((hasDerivAt_sin φ).div hR hRp.ne').const_mul ((1 - e.Fl) ^ 2)).const_mul e.Er).congr_deriv ?_
    rw [hcurv]
    generalize sqrt (cos φ ^ 2 + (1 - e.Fl) ^ 2 * sin φ ^ 2) = R at *
    field_simp
    linear_combination hRR + hcs

/-- C50.  The distance is symmetric. -/
theorem C50_symmetric (e : Ellipsoid) (p q : Coord) : e.Distance p q = e.Distance q p := by
  unfold Ellipsoid.Distance
  dsimp only
  rw [add_comm p.Lat q.Lat, ← neg_sub q.Lat p.Lat, ← neg_sub q.Lon p.Lon, neg_div, neg_div, sin_neg, sin_neg, cos_neg, cos_neg, neg_mul_neg,
    neg_mul_neg]

/-- C50, violation: the distance of any point from itself is not 0 but NaN, on every ellipsoid. -/
theorem C50_violation (e : Ellipsoid) (p : Coord) : e.Distance p p = EF.nan := by
  unfold Ellipsoid.Distance
  dsimp only
  simp only [sub_self, zero_div, sin_zero, cos_zero, mul_zero, zero_mul, add_zero, mul_one]
  rw [EF.fin_div_ne one_ne_zero, zero_div, EF.sqrt_fin le_rfl, sqrt_zero, EF.atan_fin, arctan_zero, EF.fin_div, if_pos rfl, if_pos rfl]
  simp

/-- C50 (partial).  Two points neither coincident nor antipodal: the distance is a finite number; on a sphere it is the radius
times the angle between the two directions.  Missing: coincident points. -/
theorem C50_distance_partial (e : Ellipsoid) (p q : Coord) (h0 : 0 < sep p.Lon p.Lat q.Lon q.Lat) (h1 : sep p.Lon p.Lat q.Lon q.Lat < π) :
    ∃ x, e.Distance p q = EF.fin x ∧ (e.Fl = 0 → x = e.Er * sep p.Lon p.Lat q.Lon q.Lat) := by
  obtain ⟨θ, hθ⟩ : ∃ θ, θ = sep p.Lon p.Lat q.Lon q.Lat := ⟨_, rfl⟩
  rw [← hθ] at h0 h1 ⊢
  have hb : -1 ≤ sin p.Lat * sin q.Lat + cos p.Lat * cos q.Lat * cos (p.Lon - q.Lon) ∧
      sin p.Lat * sin q.Lat + cos p.Lat * cos q.Lat * cos (p.Lon - q.Lon) ≤ 1 := by
    have := abs_real_inner_le_norm (dir p.Lon p.Lat) (dir q.Lon q.Lat)
    rwa [norm_dir, norm_dir, inner_dir, mul_one, abs_le] at this
  have hcos : cos θ = sin p.Lat * sin q.Lat + cos p.Lat * cos q.Lat * cos (p.Lon - q.Lon) := by
    rw [hθ, sep_eq, cos_arccos hb.1 hb.2]
  have hs2 : sin (θ / 2) ^ 2 = (1 - cos θ) / 2 := by
    have a1 := cos_two_mul (θ / 2)
    rw [mul_div_cancel₀ _ two_ne_zero] at a1
    linarith [sin_sq_add_cos_sq (θ / 2)]
  have hc2 : cos (θ / 2) ^ 2 = (1 + cos θ) / 2 := by linarith [sin_sq_add_cos_sq (θ / 2)]
  have hsp : 0 < sin (θ / 2) := sin_pos_of_pos_of_lt_pi (by linarith) (by linarith)
  have hcp : 0 < cos (θ / 2) := cos_pos_of_mem_Ioo ⟨by linarith, by linarith⟩
  -- half sums and differences
  have hf : p.Lat = (p.Lat + q.Lat) / 2 + (p.Lat - q.Lat) / 2 := by ring
  have hg : q.Lat = (p.Lat + q.Lat) / 2 - (p.Lat - q.Lat) / 2 := by ring
  have hl : p.Lon - q.Lon = 2 * ((p.Lon - q.Lon) / 2) := by ring
  unfold Ellipsoid.Distance
  dsimp only
  generalize (p.Lat + q.Lat) / 2 = f at *
  generalize (p.Lat - q.Lat) / 2 = g at *
  generalize (p.Lon - q.Lon) / 2 = l at *
  rw [hl, hf, hg, cos_two_mul, sin_add, cos_add, sin_sub, cos_sub] at hcos
  have ef := sin_sq_add_cos_sq f
  have eg := sin_sq_add_cos_sq g
  have el := sin_sq_add_cos_sq l
  have hcos' : cos θ = 1 - 2 * cos f ^ 2 + 2 * cos l ^ 2 * (cos f ^ 2 - sin g ^ 2) := by
    rw [hcos]
    linear_combination (cos g ^ 2 - (2 * cos l ^ 2 - 1) * sin g ^ 2) * ef + ((1 - cos f ^ 2) + (2 * cos l ^ 2 - 1) * cos f ^ 2) * eg
  have hS : sin g * sin g * (cos l * cos l) + cos f * cos f * (sin l * sin l) = sin (θ / 2) ^ 2 := by
    rw [hs2, hcos']
    linear_combination cos f ^ 2 * el
  have hC : cos g * cos g * (cos l * cos l) + sin f * sin f * (sin l * sin l) = cos (θ / 2) ^ 2 := by
    linear_combination cos l ^ 2 * eg + sin l ^ 2 * ef + el - hS - sin_sq_add_cos_sq (θ / 2)
  have hsq : sqrt (sin (θ / 2) ^ 2 / cos (θ / 2) ^ 2) = tan (θ / 2) := by
    rw [← div_pow, sqrt_sq (by positivity), tan_eq_sin_div_cos]
  have hat : arctan (tan (θ / 2)) = θ / 2 := arctan_tan (by linarith) (by linarith)
  have hθ2 : θ / 2 ≠ 0 := by linarith
  have hd1 : (2 : ℝ) * cos (θ / 2) ^ 2 ≠ 0 := by positivity
  have hd2 : (2 : ℝ) * sin (θ / 2) ^ 2 ≠ 0 := by positivity
  rw [hS, hC, EF.fin_div_ne (by positivity), EF.sqrt_fin (by positivity), EF.sqrt_fin (by positivity), EF.atan_fin, hsq, hat, EF.fin_div_ne hθ2]
  simp only [EF.fin_mul, EF.fin_sub, EF.fin_add]
  rw [EF.fin_div_ne hd1, EF.fin_div_ne hd2]
  simp only [EF.fin_mul, EF.fin_sub, EF.fin_add]
  refine ⟨_, rfl, fun h => ?_⟩
  rw [h]; ring

example : sep 0 0 1 0 = 1 := by
  rw [sep_eq]; simp
  rw [arccos_cos (by norm_num) (by linarith [pi_gt_three])]

/-- C50.  Along a meridian the distance includes the flattening to first order: it is the integral of the radius of curvature of the
meridian, a(1 - f/2 - 3f/2 cos 2φ), over the latitude. -/
theorem C50_meridian (e : Ellipsoid) (p q : Coord) (hl : p.Lon = q.Lon) (h0 : p.Lat < q.Lat) (h1 : q.Lat - p.Lat < π) :
    e.Distance p q = EF.fin (∫ φ in p.Lat..q.Lat, e.Er * (1 - e.Fl / 2 - 3 * e.Fl / 2 * cos (2 * φ))) := by
  have hint : ∫ φ in p.Lat..q.Lat, e.Er * (1 - e.Fl / 2 - 3 * e.Fl / 2 * cos (2 * φ)) =
      e.Er * ((1 - e.Fl / 2) * (q.Lat - p.Lat) - 3 * e.Fl / 4 * (sin (2 * q.Lat) - sin (2 * p.Lat))) := by
    have hd : ∀ φ : ℝ, HasDerivAt (fun φ => e.Er * ((1 - e.Fl / 2) * φ - 3 * e.Fl / 4 * sin (2 * φ)))
        (e.Er * (1 - e.Fl / 2 - 3 * e.Fl / 2 * cos (2 * φ))) φ := by
      intro φ
      have h2 : HasDerivAt (fun φ : ℝ => sin (2 * φ)) (cos (2 * φ) * (2 * 1)) φ := ((hasDerivAt_id φ).const_mul 2).sin
      have := (((hasDerivAt_id φ).const_mul (1 - e.Fl / 2)).sub (h2.const_mul (3 * e.Fl / 4))).const_mul e.Er
      exact this.congr_deriv (by ring)
    rw [intervalIntegral.integral_eq_sub_of_hasDerivAt (fun φ _ => hd φ) (by apply Continuous.intervalIntegrable; fun_prop)]
    ring
  rw [hint]
  obtain ⟨g, hg⟩ : ∃ g, g = (q.Lat - p.Lat) / 2 := ⟨_, rfl⟩
  obtain ⟨f, hf⟩ : ∃ f, f = (p.Lat + q.Lat) / 2 := ⟨_, rfl⟩
  have hq : q.Lat = f + g := by rw [hf, hg]; ring
  have hp : p.Lat = f - g := by rw [hf, hg]; ring
  have g0 : 0 < g := by linarith
  have g1 : g < π / 2 := by linarith
  have sg : 0 < sin g := sin_pos_of_pos_of_lt_pi g0 (by linarith)
  have cg : 0 < cos g := cos_pos_of_mem_Ioo ⟨by linarith, g1⟩
  unfold Ellipsoid.Distance
  dsimp only
  rw [hl, hp, hq, show (f - g + (f + g)) / 2 = f by ring, show (f - g - (f + g)) / 2 = -g by ring, sub_self, zero_div]
  simp only [sin_zero, cos_zero, mul_zero, mul_one, add_zero, sin_neg, cos_neg, neg_mul_neg]
  have hsq : sqrt (sin g * sin g / (cos g * cos g)) = tan g := by
    rw [tan_eq_sin_div_cos, ← div_mul_div_comm, sqrt_mul_self (by positivity)]
  have hsc : sqrt (sin g * sin g * (cos g * cos g)) = sin g * cos g := by
    rw [show sin g * sin g * (cos g * cos g) = (sin g * cos g) * (sin g * cos g) by ring, sqrt_mul_self (by positivity)]
  have d1 : (2 : ℝ) * (cos g * cos g) ≠ 0 := by positivity
  have d2 : (2 : ℝ) * (sin g * sin g) ≠ 0 := by positivity
  rw [EF.fin_div_ne (by positivity), EF.sqrt_fin (by positivity), EF.sqrt_fin (by positivity), EF.atan_fin, hsq, hsc,
    arctan_tan (by linarith) (by linarith), EF.fin_div_ne g0.ne']
  simp only [EF.fin_mul, EF.fin_sub, EF.fin_add]
  rw [EF.fin_div_ne d1, EF.fin_div_ne d2]
  simp only [EF.fin_mul, EF.fin_sub, EF.fin_add]
  congr 1
  have e1 := sin_sq_add_cos_sq f
  have e2 : sin (2 * (f + g)) - sin (2 * (f - g)) = 4 * (cos f ^ 2 - sin f ^ 2) * (sin g * cos g) := by
    rw [sin_two_mul, sin_two_mul, sin_add, cos_add, sin_sub, cos_sub]
    have e3 := sin_sq_add_cos_sq g
    generalize sin f = a at *; generalize cos f = b at *; generalize sin g = c at *; generalize cos g = d at *
    clear * - e1 e3
    grind
  rw [e2]
  field_simp
  linear_combination (-2 * g * e.Er * e.Fl) * e1

/-- A degree of latitude is longer near the pole than at the equator. -/
example (e : Ellipsoid) (hr : 0 < e.Er) (hf : 0 < e.Fl) : ∃ x y, e.Distance ⟨0, 0⟩ ⟨0.1, 0⟩ = EF.fin x ∧ e.Distance ⟨1, 0⟩ ⟨1.1, 0⟩ = EF.fin y ∧ x < y := by
  refine ⟨_, _, C50_meridian e ⟨0, 0⟩ ⟨0.1, 0⟩ rfl (by norm_num) (by norm_num; linarith [pi_gt_three]), C50_meridian e ⟨1, 0⟩ ⟨1.1, 0⟩ rfl (by norm_num) (by norm_num; linarith [pi_gt_three]), ?_⟩
  have key : ∀ a : ℝ, ∫ φ in a..a + 0.1, e.Er * (1 - e.Fl / 2 - 3 * e.Fl / 2 * cos (2 * φ)) =
      ∫ φ in (0 : ℝ)..0.1, e.Er * (1 - e.Fl / 2 - 3 * e.Fl / 2 * cos (2 * (φ + a))) := by
    intro a
    have := intervalIntegral.integral_comp_add_right (a := 0) (b := 0.1) (fun φ => e.Er * (1 - e.Fl / 2 - 3 * e.Fl / 2 * cos (2 * φ))) a
    rw [this, zero_add, add_comm]
  have k1 := key 1
  rw [show (1 : ℝ) + 0.1 = 1.1 by norm_num] at k1
  dsimp only
  rw [k1]
  apply intervalIntegral.integral_lt_integral_of_continuousOn_of_le_of_exists_lt (by norm_num) (by fun_prop) (by fun_prop)
  · intro φ hφ
    have : cos (2 * (φ + 1)) ≤ cos (2 * φ) := cos_le_cos_of_nonneg_of_le_pi (by linarith [hφ.1]) (by linarith [hφ.2, pi_gt_three]) (by linarith)
    apply mul_le_mul_of_nonneg_left _ hr.le
    nlinarith
  · refine ⟨0, ⟨le_rfl, by norm_num⟩, ?_⟩
    have : cos (2 * (0 + 1)) < cos (2 * 0) := cos_lt_cos_of_nonneg_of_le_pi (by norm_num) (by linarith [pi_gt_three]) (by norm_num)
    apply mul_lt_mul_of_pos_left _ hr
    have := mul_lt_mul_of_pos_left this (show 0 < 3 * e.Fl / 2 by positivity)
    linarith

end Verif.Props
