import Verif.Model.PlanetPhys
import Verif.Lemmas.Planet
import Verif.Props.Coord
import Verif.Props.Illum
import Verif.Props.PlanetPos
/-
C137, C138: the ring of Saturn.
-/
namespace Verif.Props

open Real Verif.Go Verif.Model Verif.Model.PlanetPhys Verif.Spec Verif.Lemmas

/-- The vector from the Earth to the planet found by the light-time passes. -/
noncomputable def gvec (p : Pass) : V3 := !₂[p.x, p.y, p.z]

theorem gvec_norm (p : Pass) : ‖gvec p‖ = p.Δ := norm_vec _ _ _

theorem gvec_dir (p : Pass) (h : p.x ≠ 0 ∨ p.y ≠ 0) : gvec p = p.Δ • dir p.lam p.β := (dir_arctan p.z h).symm

theorem pass_Δ_pos (p : Pass) (h : p.x ≠ 0 ∨ p.y ≠ 0) : 0 < p.Δ := by
  unfold Pass.Δ
  apply sqrt_pos.2
  rcases h with h | h
  · have := mul_self_pos.2 h; nlinarith [mul_self_nonneg p.y, mul_self_nonneg p.z]
  · have := mul_self_pos.2 h; nlinarith [mul_self_nonneg p.x, mul_self_nonneg p.z]

/-- C137.  The vector used is that from the Earth to Saturn, except that the Earth's tiny latitude b0 is left out of its first two coordinates:
the error is at most R (1 − cos b0). -/
theorem C137_vector (planet : Planet) (jde Δ : ℝ) (e : ℝ × ℝ × ℝ) (hR : 0 ≤ e.2.2) :
    let p := pass planet jde e Δ
    ‖gvec p - (p.r • dir p.l p.b - e.2.2 • dir e.1 e.2.1)‖ ≤ e.2.2 * (1 - cos e.2.1) := by
  intro p
  have h : gvec p - (p.r • dir p.l p.b - e.2.2 • dir e.1 e.2.1) =
      (-(e.2.2 * (1 - cos e.2.1))) • dir e.1 0 := by
    have hx : p.x = p.r * cos p.b * cos p.l - e.2.2 * cos e.1 := rfl
    have hy : p.y = p.r * cos p.b * sin p.l - e.2.2 * sin e.1 := rfl
    have hz : p.z = p.r * sin p.b - e.2.2 * sin e.2.1 := rfl
    unfold gvec dir
    rw [hx, hy, hz, cos_zero, sin_zero]
    simp only [smul_vec, sub_eq_add_neg, neg_vec, add_vec]
    apply vec_eq <;> ring
  rw [h, norm_smul, norm_dir, mul_one, norm_neg, Real.norm_of_nonneg]
  exact mul_nonneg hR (by linarith [cos_le_one e.2.1])

/-- C137.  In coordinates referred to the plane of the ring, Saturn seen from the Earth is at latitude −B, and Saturn seen from the Sun at
latitude −Bʹ; so B and Bʹ are the latitudes of the Earth and of the Sun seen from Saturn.  ΔU is the absolute difference of the two longitudes in
the plane of the ring, both taken in (−π, π]. -/
theorem C137_frame (e s : Planet) (jde : ℝ) (h : (Ring.saturn e s jde).x ≠ 0 ∨ (Ring.saturn e s jde).y ≠ 0) :
    let p := Ring.saturn e s jde
    let R := Ring.Ring e s jde
    ∃ U1 U2 : ℝ, -π < U1 ∧ U1 ≤ π ∧ -π < U2 ∧ U2 ≤ π ∧
      dir (Ring.l' p) (Ring.b' jde p) = fromPlane (Ring.inc jde) (Ring.node jde) U1 (-R.2.1) ∧
      gvec p = p.Δ • fromPlane (Ring.inc jde) (Ring.node jde) U2 (-R.1) ∧
      R.2.2.1 = |U1 - U2| := by
  intro p R
  refine ⟨_, _, (atan2_range _ _).1, (atan2_range _ _).2, (atan2_range _ _).1, (atan2_range _ _).2,
    dir_fromPlane _ _ _ _, ?_, rfl⟩
  rw [gvec_dir p h]
  congr 1
  exact dir_fromPlane _ _ _ _

/-- C137.  B and Bʹ are arcs of at most 90°, positive when the Earth, or the Sun, is on the north side of the ring: their sines are the
components along the pole of the ring. -/
theorem C137_latitudes (e s : Planet) (jde : ℝ) (h : (Ring.saturn e s jde).x ≠ 0 ∨ (Ring.saturn e s jde).y ≠ 0) :
    let p := Ring.saturn e s jde
    let R := Ring.Ring e s jde
    let n := planePole (Ring.inc jde) (Ring.node jde)
    |R.1| ≤ π / 2 ∧ |R.2.1| ≤ π / 2 ∧ p.Δ * sin R.1 = inner ℝ n (-gvec p) ∧ sin R.2.1 = inner ℝ n (-dir (Ring.l' p) (Ring.b' jde p)) := by
  intro p R n
  obtain ⟨U1, U2, -, -, -, -, h1, h2, -⟩ := C137_frame e s jde h
  have key : ∀ U B, inner ℝ n (fromPlane (Ring.inc jde) (Ring.node jde) U (-B)) = -sin B := by
    intro U B
    have : inner ℝ n (fromPlane (Ring.inc jde) (Ring.node jde) U (-B)) = inner ℝ (!₂[0, 0, 1] : V3) (dir U (-B)) := by
      show inner ℝ (planePole _ _) _ = _
      unfold planePole fromPlane
      rw [inner_rotZ, inner_rotX]
    rw [this]
    unfold dir
    rw [inner_vec, sin_neg]; ring
  refine ⟨abs_arcsin_le _, abs_arcsin_le _, ?_, ?_⟩
  · rw [h2, inner_neg_right, inner_smul_right, key]; ring
  · rw [h1, inner_neg_right, key]; ring

/-- C137.  The minor axis of the ring is the major axis foreshortened by the latitude of the Earth; the major axis is 375.35″ at distance 1. -/
theorem C137_axes (e s : Planet) (jde : ℝ) (h : (Ring.saturn e s jde).x ≠ 0 ∨ (Ring.saturn e s jde).y ≠ 0) :
    let R := Ring.Ring e s jde
    R.2.2.2.2.1 * ‖gvec (Ring.saturn e s jde)‖ = 375.35 * (π / 180 / 3600) ∧
    R.2.2.2.2.2 = R.2.2.2.2.1 * |sin R.1| ∧ 0 ≤ R.2.2.2.2.2 ∧ R.2.2.2.2.2 ≤ R.2.2.2.2.1 ∧ 0 < R.2.2.2.2.1 := by
  intro R
  have hΔ := pass_Δ_pos _ h
  have ha : R.2.2.2.2.1 = 375.35 * Nutation.sec / (Ring.saturn e s jde).Δ := rfl
  have hs : 0 < Nutation.sec := by unfold Nutation.sec; positivity
  have hpos : 0 < R.2.2.2.2.1 := by rw [ha]; positivity
  have hb : R.2.2.2.2.2 = R.2.2.2.2.1 * |Ring.sB e s jde| := rfl
  have hB : sin R.1 = Ring.sB e s jde := by
    show sin (arcsin (Ring.sB e s jde)) = _
    have hn : Ring.sB e s jde ^ 2 ≤ 1 := by
      unfold Ring.sB
      dsimp only
      have e1 := sin_sq_add_cos_sq (Ring.inc jde)
      have e2 := sin_sq_add_cos_sq (Ring.saturn e s jde).β
      have e3 := sin_sq_add_cos_sq ((Ring.saturn e s jde).lam - Ring.node jde)
      generalize sin (Ring.inc jde) = s1 at *; generalize cos (Ring.inc jde) = c1 at *
      generalize sin (Ring.saturn e s jde).β = s2 at *; generalize cos (Ring.saturn e s jde).β = c2 at *
      generalize sin ((Ring.saturn e s jde).lam - Ring.node jde) = s3 at *
      generalize cos ((Ring.saturn e s jde).lam - Ring.node jde) = c3 at *
      have : (s1 * c2 * s3 - c1 * s2) ^ 2 = 1 - (c2 * c3) ^ 2 - (s1 * s2 + c1 * c2 * s3) ^ 2 := by
        clear ha hpos hb
        grind
      rw [this]
      nlinarith [sq_nonneg (c2 * c3), sq_nonneg (s1 * s2 + c1 * c2 * s3)]
    exact sin_arcsin (by nlinarith) (by nlinarith)
  refine ⟨?_, by rw [hb, hB], ?_, ?_, hpos⟩
  · rw [ha, gvec_norm, div_mul_cancel₀ _ hΔ.ne']; rfl
  · rw [hb]; positivity
  · rw [hb, ← hB]
    have := abs_sin_le_one R.1
    nlinarith

/-- The inclination of the ring stays between 0 and 90° within ten thousand years of 2000. -/
theorem ring_inc_pos (jde : ℝ) (hT : |J2000Century jde| ≤ 100) : 0 < Ring.inc jde ∧ Ring.inc jde < π / 2 := by
  obtain ⟨a, b⟩ := abs_le.1 hT
  have hpi := pi_pos
  have h : Ring.inc jde = (28.075216 - 0.012998 * J2000Century jde + 0.000004 * J2000Century jde ^ 2) * π / 180 := by
    unfold Ring.inc hornerR; simp only [List.foldr]; ring
  have h2 : J2000Century jde ^ 2 ≤ 10000 := by nlinarith
  have h3 := sq_nonneg (J2000Century jde)
  rw [h]
  constructor
  · have : 0 < 28.075216 - 0.012998 * J2000Century jde + 0.000004 * J2000Century jde ^ 2 := by nlinarith
    positivity
  · have : 28.075216 - 0.012998 * J2000Century jde + 0.000004 * J2000Century jde ^ 2 < 90 := by nlinarith
    nlinarith

/-- The apparent ecliptic direction of Saturn that P refers to: the geometric one displaced by annual aberration, then by nutation. -/
noncomputable def ringApparent (e s : Planet) (jde : ℝ) : ℝ × ℝ :=
  let p := Ring.saturn e s jde
  let l0 := (Ring.earth e jde).1
  (p.lam + 0.005693 * π / 180 * (cos (l0 - p.lam) / cos p.β) + (Nutation.Nutation jde).1,
   p.β + 0.005693 * π / 180 * (sin (l0 - p.lam) * sin p.β))

/-- C137.  P is the position angle of the north pole of the ring: with the pole moved by the nutation in longitude, seen in equatorial coordinates
of the true equator at the apparent place of Saturn, the pole's component perpendicular to the line of sight points by P from north through east. -/
theorem C137_position_angle (e s : Planet) (jde : ℝ) (hT : |J2000Century jde| ≤ 100) (hβ : 0 < cos (ringApparent e s jde).2) :
    let ε := Nutation.MeanObliquity jde + (Nutation.Nutation jde).2
    let n := rotX ε (planePole (Ring.inc jde) (Ring.node jde + (Nutation.Nutation jde).1))
    let P := (Ring.Ring e s jde).2.2.2.1
    ∃ α δ : ℝ, dir α δ = rotX ε (dir (ringApparent e s jde).1 (ringApparent e s jde).2) ∧
      perp (dir α δ) n = ‖perp (dir α δ) n‖ • (sin P • east α + cos P • north α δ) := by
  intro ε n P
  obtain ⟨i0, i1⟩ := ring_inc_pos jde hT
  obtain ⟨q, hq⟩ : ∃ q, q = Coord.EclToEq (ringApparent e s jde).1 (ringApparent e s jde).2 (sin ε) (cos ε) := ⟨_, rfl⟩
  obtain ⟨q0, hq0⟩ : ∃ q0, q0 = Coord.EclToEq (Ring.node jde - π / 2 + (Nutation.Nutation jde).1) (π / 2 - Ring.inc jde) (sin ε) (cos ε) :=
    ⟨_, rfl⟩
  have d1 := C46_eclToEq_rotation (ringApparent e s jde).1 (ringApparent e s jde).2 (sin ε) (cos ε) (sin_sq_add_cos_sq ε) hβ
  have d0 := C46_eclToEq_rotation (Ring.node jde - π / 2 + (Nutation.Nutation jde).1) (π / 2 - Ring.inc jde) (sin ε) (cos ε)
    (sin_sq_add_cos_sq ε) (by rw [cos_pi_div_two_sub]; exact sin_pos_of_pos_of_lt_pi i0 (by linarith))
  rw [← hq] at d1
  rw [← hq0] at d0
  have hn : n = dir q0.1 q0.2 := by
    rw [d0]
    show rotX ε (planePole _ _) = _
    rw [planePole_vec, rotX_vec, cos_pi_div_two_sub, sin_pi_div_two_sub,
      show Ring.node jde - π / 2 + (Nutation.Nutation jde).1 = Ring.node jde + (Nutation.Nutation jde).1 - π / 2 by ring,
      cos_sub_pi_div_two, sin_sub_pi_div_two]
    apply vec_eq <;> ring
  have hP : P = atan2 (cos q0.2 * sin (q0.1 - q.1)) (sin q0.2 * cos q.2 - cos q0.2 * sin q.2 * cos (q0.1 - q.1)) := by
    rw [hq, hq0]; rfl
  refine ⟨q.1, q.2, ?_, ?_⟩
  · rw [d1]; unfold dir; rw [rotX_vec]
  · have hl := (C96_limb q.1 q.2 q0.1 q0.2).2
    rw [hn]
    have hsc : sin (Limb q.1 q.2 q0.1 q0.2) = sin P ∧ cos (Limb q.1 q.2 q0.1 q0.2) = cos P := by
      unfold Limb
      dsimp only
      rw [← hP]
      split_ifs
      · rw [sin_add_two_pi, cos_add_two_pi]; exact ⟨rfl, rfl⟩
      · exact ⟨rfl, rfl⟩
    rw [hsc.1, hsc.2] at hl
    exact hl

/-- C138, the part that holds: ΔU is, up to sign and full turns, the difference of the ring longitudes of Sun and Earth; so it gives back the angle
between the directions to Sun and Earth seen from Saturn.  Missing: that it is not more than 180°, see the violation. -/
theorem C138_deltaU_partial (e s : Planet) (jde : ℝ) (h : (Ring.saturn e s jde).x ≠ 0 ∨ (Ring.saturn e s jde).y ≠ 0) :
    let p := Ring.saturn e s jde
    let R := Ring.Ring e s jde
    0 ≤ R.2.2.1 ∧ R.2.2.1 < 2 * π ∧
    inner ℝ (gvec p) (dir (Ring.l' p) (Ring.b' jde p)) =
      p.Δ * (sin R.1 * sin R.2.1 + cos R.1 * cos R.2.1 * cos R.2.2.1) := by
  intro p R
  obtain ⟨U1, U2, a1, a2, b1, b2, h1, h2, h3⟩ := C137_frame e s jde h
  refine ⟨?_, ?_, ?_⟩
  · rw [h3]; exact abs_nonneg _
  · rw [h3, abs_lt]; constructor <;> linarith
  · rw [h3, cos_abs, h2, h1, inner_smul_left, inner_fromPlane, sin_neg, cos_neg, sin_neg, cos_neg, cos_sub, cos_sub]
    simp only [conj_trivial]
    ring

theorem atan2_second {y x : ℝ} (hx : x < 0) (hy : 0 < y) : π / 2 < atan2 y x := by
  obtain ⟨p1, p2⟩ := atan2_polar y x
  obtain ⟨r1, r2⟩ := atan2_range y x
  have hr := sqrt_nonneg (x ^ 2 + y ^ 2)
  by_contra hle
  push Not at hle
  rcases lt_or_ge (atan2 y x) (-(π / 2)) with h | h
  · have := sin_nonpos_of_nonpos_of_neg_pi_le (by linarith [pi_pos] : atan2 y x ≤ 0) r1.le
    nlinarith
  · have := cos_nonneg_of_mem_Icc ⟨h, hle⟩
    nlinarith

theorem atan2_third {y x : ℝ} (hx : x < 0) (hy : y < 0) : atan2 y x < -(π / 2) := by
  obtain ⟨p1, p2⟩ := atan2_polar y x
  obtain ⟨r1, r2⟩ := atan2_range y x
  have hr := sqrt_nonneg (x ^ 2 + y ^ 2)
  by_contra hle
  push Not at hle
  rcases lt_or_ge (π / 2) (atan2 y x) with h | h
  · have := sin_nonneg_of_nonneg_of_le_pi (by linarith [pi_pos] : 0 ≤ atan2 y x) r2
    nlinarith
  · have := cos_nonneg_of_mem_Icc ⟨hle, h⟩
    nlinarith

/-- An Earth and a Saturn for the violation: at their real distances 1 and 9 from the Sun, in the plane of the ecliptic, Saturn a little more than
one degree before the descending node of its ring, the Earth 90° ahead of the ascending node. -/
noncomputable def vEarth : Planet := fun _ => (169.50847 * π / 180 + π / 2 + 0.09033 * Nutation.sec, 0, 1)
noncomputable def vSaturn : Planet := fun _ =>
  (169.50847 * π / 180 + π - 1 / 50 + 0.09033 * Nutation.sec + 0.01759 * π / 180 / 9, 0, 9)

theorem tiny_fk5 (L : ℝ) : |0.03916 * (cos L - sin L) * Nutation.sec| ≤ 0.0000004 := by
  obtain ⟨s0, s1⟩ := sec_val
  have c1 := abs_le.1 (abs_cos_le_one L)
  have c2 := abs_le.1 (abs_sin_le_one L)
  rw [abs_le]
  constructor <;> nlinarith

theorem atan2_second_near {y x c : ℝ} (hx : x < 0) (hy : 0 < y) (hc : y ≤ c * -x) : π - π / 2 * c ≤ atan2 y x := by
  have h2 := atan2_second hx hy
  obtain ⟨p1, p2⟩ := atan2_polar y x
  obtain ⟨r1, r2⟩ := atan2_range y x
  have hr : -x ≤ sqrt (x ^ 2 + y ^ 2) := by
    apply le_sqrt_of_sq_le; nlinarith
  have hj := mul_le_sin (x := π - atan2 y x) (by linarith) (by linarith)
  rw [sin_pi_sub] at hj
  have hs : sin (atan2 y x) ≤ c := by
    have hc0 : 0 ≤ c := by by_contra h; push Not at h; nlinarith
    by_contra h
    push Not at h
    nlinarith
  have hp := pi_pos
  have : 2 / π * (π - atan2 y x) * (π / 2) = π - atan2 y x := by field_simp
  nlinarith

theorem atan2_third_near {y x c : ℝ} (hx : x < 0) (hy : y < 0) (hc : -y ≤ c * -x) : atan2 y x ≤ -(π - π / 2 * c) := by
  have h2 := atan2_third hx hy
  obtain ⟨p1, p2⟩ := atan2_polar y x
  obtain ⟨r1, r2⟩ := atan2_range y x
  have hr : -x ≤ sqrt (x ^ 2 + y ^ 2) := by
    apply le_sqrt_of_sq_le; nlinarith
  have hj := mul_le_sin (x := atan2 y x + π) (by linarith) (by linarith)
  rw [sin_add_pi] at hj
  have hs : -sin (atan2 y x) ≤ c := by
    have hc0 : 0 ≤ c := by by_contra h; push Not at h; nlinarith
    by_contra h
    push Not at h
    nlinarith
  have hp := pi_pos
  have : 2 / π * (atan2 y x + π) * (π / 2) = atan2 y x + π := by field_simp
  nlinarith

/-- The magnitude of Saturn with a ΔU of more than 6 radians and with the difference 2π − ΔU. -/
theorem saturn_seven (Δ ΔU B : ℝ) (h6 : 6 < ΔU) (h2 : ΔU < 2 * π) : Illum.Saturn 9 Δ B (2 * π - ΔU) + 7 < Illum.Saturn 9 Δ B ΔU := by
  have h4 := pi_lt_d4
  have t : ∀ x, Illum.toDeg x = x * (180 / π) := by intro x; unfold Illum.toDeg; ring
  have hd : 57 < 180 / π := by rw [lt_div_iff₀ pi_pos]; linarith
  unfold Illum.Saturn
  rw [t, t, abs_of_pos (mul_pos (by linarith) (by linarith) : 0 < (2 * π - ΔU) * (180 / π)),
    abs_of_pos (mul_pos (by linarith) (by linarith) : 0 < ΔU * (180 / π))]
  dsimp only
  have : 5 * 57 ≤ (ΔU - (2 * π - ΔU)) * (180 / π) := mul_le_mul (by linarith) hd.le (by norm_num) (by linarith)
  linarith

/-- Two directions whose inner product is more than 0.981 are within 0.2 radians. -/
theorem angle_lt_fifth {u v : V3} (h : 0.981 * (‖u‖ * ‖v‖) < inner ℝ u v) (hu : 0 < ‖u‖ * ‖v‖) : InnerProductGeometry.angle u v < 0.2 := by
  have hc := InnerProductGeometry.cos_angle_mul_norm_mul_norm u v
  have h1 : 0.981 < cos (InnerProductGeometry.angle u v) := by
    by_contra hn; push Not at hn
    nlinarith
  by_contra hn
  push Not at hn
  have h2 := cos_le_cos_of_nonneg_of_le_pi (by norm_num) (InnerProductGeometry.angle_le_pi u v) hn
  have h3 : cos (0.2 : ℝ) < 0.981 := by
    have := sin_gt_sub_cube (x := 0.1) (by norm_num)
    have e : cos (0.2 : ℝ) = 1 - 2 * sin 0.1 ^ 2 := by
      rw [show (0.2 : ℝ) = 2 * 0.1 by norm_num, cos_two_mul]; linarith [sin_sq_add_cos_sq (0.1 : ℝ)]
    norm_num at this e ⊢
    nlinarith
  linarith

theorem mul_lo {a b m n : ℝ} (ha : m ≤ a) (hb : n ≤ b) (hm : 0 ≤ m) (hn : 0 ≤ n) : m * n ≤ a * b :=
  mul_le_mul ha hb hn (hm.trans ha)

theorem mul_hi {a b m n : ℝ} (ha : a ≤ m) (hb : b ≤ n) (h0 : 0 ≤ a) (hb0 : 0 ≤ b) : a * b ≤ m * n :=
  mul_le_mul ha hb hb0 (h0.trans ha)

theorem mul_small {a b n : ℝ} (ha : |a| ≤ 1) (hb : |b| ≤ n) : |a * b| ≤ n := by
  rw [abs_mul]
  calc _ ≤ 1 * n := mul_le_mul ha hb (abs_nonneg _) (by norm_num)
    _ = n := one_mul n

theorem cent0 : J2000Century 2451545 = 0 := by unfold J2000Century; norm_num

theorem ring0 : Ring.inc 2451545 = 28.075216 * π / 180 ∧ Ring.node 2451545 = 169.50847 * π / 180 := by
  unfold Ring.inc Ring.node hornerR
  rw [cent0]; simp

theorem vEarth_pos : ∃ b0, |b0| ≤ 0.0000004 ∧ Ring.earth vEarth 2451545 = (Ring.node 2451545 + π / 2, b0, 1) := by
  refine ⟨_, tiny_fk5 (169.50847 * π / 180 + π / 2 + 0.09033 * Nutation.sec), ?_⟩
  rw [ring0.2]
  unfold Ring.earth fk5At vEarth PlanetPos.ToFK5
  dsimp only
  rw [cent0, tan_zero]
  simp only [mul_zero, add_zero, zero_mul, zero_div, sub_zero, zero_add]
  refine Prod.ext ?_ rfl
  dsimp only
  ring

theorem vSaturn_pos : ∃ b b0, |b| ≤ 0.0000004 ∧ |b0| ≤ 0.0000004 ∧
    Ring.saturn vEarth vSaturn 2451545 =
      (let l := Ring.node 2451545 + π - 1 / 50 + 0.01759 * π / 180 / 9
      ⟨l, b, 9, 9 * cos b * cos l - 1 * cos (Ring.node 2451545 + π / 2), 9 * cos b * sin l - 1 * sin (Ring.node 2451545 + π / 2),
        9 * sin b - 1 * sin b0⟩) := by
  obtain ⟨b0, hb0, he⟩ := vEarth_pos
  have hs : ∀ t, fk5At vSaturn t 2451545 = (Ring.node 2451545 + π - 1 / 50 + 0.01759 * π / 180 / 9,
      0.03916 * (cos (169.50847 * π / 180 + π - 1 / 50 + 0.09033 * Nutation.sec + 0.01759 * π / 180 / 9) -
        sin (169.50847 * π / 180 + π - 1 / 50 + 0.09033 * Nutation.sec + 0.01759 * π / 180 / 9)) * Nutation.sec, 9) := by
    intro t
    rw [ring0.2]
    unfold fk5At vSaturn PlanetPos.ToFK5
    dsimp only
    rw [cent0, tan_zero]
    simp only [mul_zero, add_zero, zero_mul, zero_div, sub_zero, zero_add]
    refine Prod.ext ?_ rfl
    dsimp only
    ring
  refine ⟨_, b0, tiny_fk5 (169.50847 * π / 180 + π - 1 / 50 + 0.09033 * Nutation.sec + 0.01759 * π / 180 / 9), hb0, ?_⟩
  unfold Ring.saturn passes pass
  dsimp only
  rw [hs, he]

set_option maxHeartbeats 1000000 in
/-- C138.  ΔU is not always the difference of the longitudes taken less than 180°: for a real configuration, with the Sun and the Earth within 0.2
radians of each other as seen from Saturn, it is more than 6 radians.  illum.Saturn, which gets ΔU from here, then makes Saturn at least 7 magnitudes
fainter than with the difference 2π − ΔU. -/
theorem C138_violation :
    let p := Ring.saturn vEarth vSaturn 2451545
    let ΔU := (Ring.Ring vEarth vSaturn 2451545).2.2.1
    (p.x ≠ 0 ∨ p.y ≠ 0) ∧ 6 < ΔU ∧ ΔU < 2 * π ∧ InnerProductGeometry.angle (gvec p) (dir (Ring.l' p) (Ring.b' 2451545 p)) < 0.2 ∧
    ∀ B, Illum.Saturn 9 p.Δ B (2 * π - ΔU) + 7 < Illum.Saturn 9 p.Δ B ΔU := by
  intro p ΔU
  obtain ⟨b, b0, hb, hb0, hp⟩ := vSaturn_pos
  have h3 := pi_gt_d4
  have h4 := pi_lt_d4
  obtain ⟨Ω, hΩ⟩ : ∃ Ω, Ω = Ring.node 2451545 := ⟨_, rfl⟩
  obtain ⟨i, hi⟩ : ∃ i, i = Ring.inc 2451545 := ⟨_, rfl⟩
  obtain ⟨κ, hκ⟩ : ∃ κ, κ = 0.01759 * π / 180 / 9 := ⟨_, rfl⟩
  have κ0 : 0 < κ := by rw [hκ]; positivity
  have κ1 : κ < 0.0001 := by rw [hκ]; linarith
  have hiv : i = 28.075216 * π / 180 := by rw [hi, ring0.1]
  rw [← hΩ, ← hκ] at hp
  obtain ⟨l, hl⟩ : ∃ l, l = Ω + π - 1 / 50 + κ := ⟨_, rfl⟩
  rw [← hl] at hp
  dsimp only at hp
  have px : p.x = 9 * cos b * cos l - 1 * cos (Ω + π / 2) := congrArg Pass.x hp
  have py : p.y = 9 * cos b * sin l - 1 * sin (Ω + π / 2) := congrArg Pass.y hp
  have pz : p.z = 9 * sin b - 1 * sin b0 := congrArg Pass.z hp
  have pl : p.l = l := congrArg Pass.l hp
  have pb : p.b = b := congrArg Pass.b hp
  have pr : p.r = 9 := congrArg Pass.r hp
  have hl' : Ring.l' p = Ω + (π - 1 / 50) := by
    unfold Ring.l'; rw [pl, pr, ← hκ, hl]; ring
  obtain ⟨b', hb'⟩ : ∃ b', b' = Ring.b' 2451545 p := ⟨_, rfl⟩
  have b'small : |b'| ≤ 0.00001 := by
    rw [hb']
    unfold Ring.b'
    dsimp only
    rw [pb, pr]
    obtain ⟨c0, c1⟩ := abs_le.1 (abs_cos_le_one (p.l - (113.6655 + 0.8771 * J2000Century 2451545) * π / 180))
    obtain ⟨d0, d1⟩ := abs_le.1 hb
    rw [abs_le]
    constructor <;> nlinarith
  -- small sines and cosines
  have sinb : ∀ x : ℝ, |sin x| ≤ |x| := fun x => abs_sin_le_abs
  have cosb : ∀ x c : ℝ, |x| ≤ c → 1 - c ^ 2 / 2 ≤ cos x := by
    intro x c hx
    have := one_sub_sq_div_two_le_cos (x := x)
    have h2 : x ^ 2 ≤ c ^ 2 := by rw [← sq_abs x]; exact pow_le_pow_left₀ (abs_nonneg x) hx 2
    linarith
  have cb := cosb b 0.0000004 hb
  have cb1 := cos_le_one b
  have cb' := cosb b' 0.00001 b'small
  have cb'1 := cos_le_one b'
  have sb := abs_le.1 ((sinb b).trans hb)
  have sb0 := abs_le.1 ((sinb b0).trans hb0)
  have sb' := abs_le.1 ((sinb b').trans b'small)
  have ci : 0.8 ≤ cos i := by
    have := cosb i 0.5 (by rw [hiv, abs_le]; constructor <;> linarith)
    norm_num at this ⊢
    linarith
  have ci1 := cos_le_one i
  have si := abs_le.1 (abs_sin_le_one i)
  have ss0 : 0.0199 < sin (1 / 50) := by
    have := sin_gt_sub_cube (x := 1 / 50) (by norm_num)
    norm_num at this ⊢
    linarith
  have ss1 : sin (1 / 50) < 0.02 := by
    have := sin_lt (x := 1 / 50) (by norm_num)
    norm_num at this ⊢
    linarith
  have sc0 : 0.999 < cos (1 / 50) := by
    have := cosb (1 / 50) (1 / 50) (by norm_num)
    norm_num at this ⊢
    linarith
  have tk0 : 0 < sin (1 / 50 - κ) := sin_pos_of_pos_of_lt_pi (by linarith) (by linarith)
  have tk1 : sin (1 / 50 - κ) < 0.02 := by
    have := sin_lt (x := 1 / 50 - κ) (by linarith)
    linarith
  have tc0 : 0.999 < cos (1 / 50 - κ) := by
    have := cosb (1 / 50 - κ) (1 / 50) (by rw [abs_le]; constructor <;> linarith)
    norm_num at this ⊢
    linarith
  have tc1 := cos_le_one (1 / 50 - κ)
  have kc := cosb κ 0.0001 (by rw [abs_of_pos κ0]; exact κ1.le)
  have kc1 := cos_le_one κ
  norm_num at cb cb' kc
  -- rotated coordinates
  have cl : cos l = -(cos Ω * cos (1 / 50 - κ)) - sin Ω * sin (1 / 50 - κ) := by
    rw [hl, show Ω + π - 1 / 50 + κ = (Ω - (1 / 50 - κ)) + π by ring, cos_add_pi, cos_sub]; ring
  have sl : sin l = -(sin Ω * cos (1 / 50 - κ)) + cos Ω * sin (1 / 50 - κ) := by
    rw [hl, show Ω + π - 1 / 50 + κ = (Ω - (1 / 50 - κ)) + π by ring, sin_add_pi, sin_sub]; ring
  have eΩ := sin_sq_add_cos_sq Ω
  have rx : cos Ω * p.x + sin Ω * p.y = -(9 * cos b * cos (1 / 50 - κ)) := by
    rw [px, py, cl, sl, cos_add_pi_div_two, sin_add_pi_div_two]
    linear_combination (-(9 * cos b * cos (1 / 50 - κ))) * eΩ
  have ry : cos Ω * p.y - sin Ω * p.x = 9 * cos b * sin (1 / 50 - κ) - 1 := by
    rw [px, py, cl, sl, cos_add_pi_div_two, sin_add_pi_div_two]
    linear_combination (9 * cos b * sin (1 / 50 - κ) - 1) * eΩ
  have hxy : p.x ≠ 0 ∨ p.y ≠ 0 := by
    by_contra hn
    push Not at hn
    rw [hn.1, hn.2] at ry
    nlinarith
  have hΔ := pass_Δ_pos p hxy
  have hΔ2 : p.Δ ^ 2 = p.x * p.x + p.y * p.y + p.z * p.z := by
    unfold Pass.Δ
    rw [sq_sqrt]
    nlinarith [mul_self_nonneg p.x, mul_self_nonneg p.y, mul_self_nonneg p.z]
  have hΔ9 : p.Δ < 9.06 := by
    have e : p.Δ ^ 2 = (9 * cos b * cos (1 / 50 - κ)) ^ 2 + (9 * cos b * sin (1 / 50 - κ) - 1) ^ 2 + p.z * p.z := by
      rw [hΔ2]
      linear_combination (-(p.x * p.x + p.y * p.y)) * eΩ + (cos Ω * p.x + sin Ω * p.y - 9 * cos b * cos (1 / 50 - κ)) * rx +
        (cos Ω * p.y - sin Ω * p.x + 9 * cos b * sin (1 / 50 - κ) - 1) * ry
    have z2 : p.z * p.z ≤ 0.001 := by rw [pz]; nlinarith
    have e1 := sin_sq_add_cos_sq (1 / 50 - κ)
    have u0 : 0 ≤ cos b * sin (1 / 50 - κ) := mul_nonneg (by linarith) tk0.le
    have cb2 : cos b ^ 2 ≤ 1 := by rw [sq_le_one_iff_abs_le_one]; exact abs_cos_le_one b
    have e2 : p.Δ ^ 2 = 81 * cos b ^ 2 + 1 - 18 * (cos b * sin (1 / 50 - κ)) + p.z * p.z := by
      rw [e]; linear_combination 81 * cos b ^ 2 * e1
    apply lt_of_pow_lt_pow_left₀ 2 (by norm_num)
    norm_num
    linarith
  have hg := gvec_dir p hxy
  unfold gvec dir at hg
  rw [smul_vec] at hg
  obtain ⟨g1, g2, g3⟩ := vec_inj hg
  obtain ⟨A1, hA1⟩ : ∃ A1, A1 = sin i * sin b' + cos i * cos b' * sin (Ring.l' p - Ω) := ⟨_, rfl⟩
  obtain ⟨B1, hB1⟩ : ∃ B1, B1 = cos b' * cos (Ring.l' p - Ω) := ⟨_, rfl⟩
  obtain ⟨A2, hA2⟩ : ∃ A2, A2 = sin i * sin p.β + cos i * cos p.β * sin (p.lam - Ω) := ⟨_, rfl⟩
  obtain ⟨B2, hB2⟩ : ∃ B2, B2 = cos p.β * cos (p.lam - Ω) := ⟨_, rfl⟩
  have hU : ΔU = |atan2 A1 B1 - atan2 A2 B2| := by
    rw [hA1, hB1, hA2, hB2, hb', hi, hΩ]; rfl
  rw [hl', show Ω + (π - 1 / 50) - Ω = π - 1 / 50 by ring] at hA1 hB1
  rw [sin_pi_sub] at hA1
  rw [cos_pi_sub] at hB1
  have q1 : 0.99 * 0.999 ≤ cos b' * cos (1 / 50) := mul_lo (by linarith) sc0.le (by norm_num) (by norm_num)
  have q2 : 0.8 * 0.99 ≤ cos i * cos b' := mul_lo ci (by linarith) (by norm_num) (by norm_num)
  have q3 : 0.8 * 0.99 * 0.0199 ≤ cos i * cos b' * sin (1 / 50) := mul_lo q2 ss0.le (by norm_num) (by norm_num)
  have q4 : cos i * cos b' ≤ 1 * 1 := mul_hi ci1 cb'1 (by linarith) (by linarith)
  have q5 : cos i * cos b' * sin (1 / 50) ≤ 1 * 1 * 0.02 := mul_hi q4 ss1.le (by linarith) (by linarith)
  have q6 := abs_le.1 (mul_small (abs_sin_le_one i) ((sinb b').trans b'small))
  norm_num at q1 q3 q5 q6
  have B1n : B1 < 0 := by rw [hB1]; linarith
  have A1p : 0 < A1 := by rw [hA1]; linarith [q6.1]
  have hB2Δ : p.Δ * B2 = -(9 * cos b * cos (1 / 50 - κ)) := by
    rw [hB2, cos_sub, ← rx, g1, g2]; ring
  have hA2Δ : p.Δ * A2 = sin i * p.z + cos i * (9 * cos b * sin (1 / 50 - κ) - 1) := by
    rw [hA2, sin_sub, ← ry, g1, g2, g3]; ring
  have pz1 : |p.z| ≤ 0.00001 := by rw [pz, abs_le]; constructor <;> linarith
  obtain ⟨z0, z1⟩ := abs_le.1 pz1
  have siz : |sin i * p.z| ≤ 0.00001 := by
    exact mul_small (abs_sin_le_one i) pz1
  obtain ⟨y0, y1⟩ := abs_le.1 siz
  have bs1 : 9 * cos b * sin (1 / 50 - κ) ≤ 0.18 := by
    have := mul_hi (by linarith : 9 * cos b ≤ 9) tk1.le (by linarith) tk0.le
    linarith
  have bs0 : 0 ≤ 9 * cos b * sin (1 / 50 - κ) := by
    have : 0 ≤ cos b := by linarith
    positivity
  have bc0 : 8.9 ≤ 9 * cos b * cos (1 / 50 - κ) := by
    have := mul_lo (by linarith : 8.99 ≤ 9 * cos b) tc0.le (by norm_num) (by norm_num)
    linarith
  have B2n : B2 < 0 := by
    by_contra h; push Not at h
    have := mul_nonneg hΔ.le h
    linarith
  have w1 := mul_lo ci (by linarith : 0.8 ≤ 1 - 9 * cos b * sin (1 / 50 - κ)) (by norm_num) (by norm_num)
  have w2 := mul_hi ci1 (by linarith : 1 - 9 * cos b * sin (1 / 50 - κ) ≤ 1) (by linarith) (by linarith)
  have A2Δn : p.Δ * A2 < 0 := by rw [hA2Δ]; linarith
  have A2n : A2 < 0 := by
    by_contra h; push Not at h
    have := mul_nonneg hΔ.le h
    linarith
  have n1 := atan2_second_near (c := 0.03) B1n A1p (by rw [hA1, hB1]; linarith [q6.2])
  have n2 := atan2_third_near (c := 0.12) B2n A2n (by
    have : p.Δ * -A2 ≤ p.Δ * (0.12 * -B2) := by
      have e1 : p.Δ * -A2 = -(p.Δ * A2) := by ring
      have e2 : p.Δ * (0.12 * -B2) = 0.12 * -(p.Δ * B2) := by ring
      rw [e1, e2, hA2Δ, hB2Δ]
      linarith
    exact le_of_mul_le_mul_left this hΔ)
  have r1 := (atan2_range A1 B1).2
  have r2 := (atan2_range A2 B2).1
  have hUv : ΔU = atan2 A1 B1 - atan2 A2 B2 := by
    rw [hU, abs_of_pos]; linarith
  have U6 : 6 < ΔU := by rw [hUv]; linarith
  have U2 : ΔU < 2 * π := by rw [hUv]; linarith
  refine ⟨hxy, U6, U2, ?_, ?_⟩
  · have hn1 : ‖gvec p‖ = p.Δ := gvec_norm p
    have hn2 : ‖dir (Ring.l' p) b'‖ = 1 := norm_dir _ _
    rw [← hb']
    apply angle_lt_fifth
    · rw [hn1, hn2]
      unfold gvec dir
      rw [inner_vec, hl']
      have c1 : cos (Ω + (π - 1 / 50)) = -(cos Ω * cos (1 / 50)) - sin Ω * sin (1 / 50) := by
        rw [cos_add, cos_pi_sub, sin_pi_sub]; ring
      have c2 : sin (Ω + (π - 1 / 50)) = -(sin Ω * cos (1 / 50)) + cos Ω * sin (1 / 50) := by
        rw [sin_add, cos_pi_sub, sin_pi_sub]; ring
      have e : p.x * (cos b' * cos (Ω + (π - 1 / 50))) + p.y * (cos b' * sin (Ω + (π - 1 / 50))) =
          cos b' * (9 * cos b * (cos (1 / 50) * cos (1 / 50 - κ) + sin (1 / 50) * sin (1 / 50 - κ)) - sin (1 / 50)) := by
        rw [c1, c2]
        linear_combination (-(cos b' * cos (1 / 50))) * rx + cos b' * sin (1 / 50) * ry
      rw [e, ← cos_sub, show (1 / 50 : ℝ) - (1 / 50 - κ) = κ by ring]
      have k1 := mul_lo (by linarith : 8.9999 ≤ 9 * cos b) (by linarith : 0.9999 ≤ cos κ) (by norm_num) (by norm_num)
      norm_num at k1
      have k2 := mul_lo (by linarith : 0.9999 ≤ cos b') (by linarith : 8.975 ≤ 9 * cos b * cos κ - sin (1 / 50)) (by norm_num) (by norm_num)
      norm_num at k2
      have k3 := (abs_le.1 (mul_small (abs_sin_le_one b') pz1)).1
      linarith
    · rw [hn1, hn2]; linarith
  · exact fun B => saturn_seven _ _ _ U6 U2

/-- A configuration that meets the hypothesis of the theorems about saturnring. -/
example : (Ring.saturn vEarth vSaturn 2451545).x ≠ 0 ∨ (Ring.saturn vEarth vSaturn 2451545).y ≠ 0 := C138_violation.1

end Verif.Props
