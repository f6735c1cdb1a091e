import Verif.Props.MoonPhys
/-
Package moon: the Sun as seen from the Moon (C129 to C131).
-/
namespace Verif.Props

open Real Verif.Spec Verif.Go Verif.Model Verif.Model.Moonposition Verif.Model.MoonPhys Verif.Lemmas Verif.Model.Nutation

theorem sub_sin_bound {x : ℝ} : |x - sin x| ≤ |x| ^ 3 / 6 := by
  have key : ∀ y : ℝ, 0 ≤ y → |y - sin y| ≤ y ^ 3 / 6 := by
    intro y hy
    rcases hy.eq_or_lt with h | h
    · rw [← h]; simp
    · rw [abs_le]; constructor
      · have := sin_lt h; have : 0 ≤ y ^ 3 / 6 := by positivity
        linarith
      · linarith [sin_gt_sub_cube h]
  rcases abs_cases x with ⟨e, h⟩ | ⟨e, h⟩
  · rw [e]; exact key x h
  · rw [e]; have := key (-x) (by linarith)
    rw [sin_neg, show -x - -sin x = -(x - sin x) by ring, abs_neg] at this; exact this

theorem helio_core (q lam0 lam β D u r : ℝ) (q0 : 0 ≤ q) (hq : q ≤ 1 / 2) (hβ : |β| ≤ 1) (hlam : lam = lam0 - D)
    (hu : u = q * (cos β * sin D)) (hr : r = 1 - q * (cos β * cos D)) :
    0 < r ∧ rotZ (-(lam0 + π)) (q • dir lam β - dir lam0 0 - r • dir (lam0 + π + u) (q * β)) =
        !₂[r - r * (cos (q * β) * cos u), u - r * (cos (q * β) * sin u), q * sin β - r * sin (q * β)] ∧
      |r - r * (cos (q * β) * cos u)| ≤ 4 * q ^ 2 ∧ |u - r * (cos (q * β) * sin u)| ≤ 4 * q ^ 2 ∧
      |q * sin β - r * sin (q * β)| ≤ 4 * q ^ 2 + q * |β| ^ 3 / 6 := by
  have cb := abs_cos_le_one β
  have cD := abs_cos_le_one D
  have sD := abs_sin_le_one D
  have cc : |cos β * cos D| ≤ 1 := by rw [abs_mul]; exact mul_le_one₀ cb (abs_nonneg _) cD
  have cs : |cos β * sin D| ≤ 1 := by rw [abs_mul]; exact mul_le_one₀ cb (abs_nonneg _) sD
  have ub : |u| ≤ q := by rw [hu, abs_mul, abs_of_nonneg q0]; exact mul_le_of_le_one_right q0 cs
  have vb : |q * β| ≤ q := by rw [abs_mul, abs_of_nonneg q0]; exact mul_le_of_le_one_right q0 hβ
  have r0 : |1 - r| ≤ q := by rw [hr, sub_sub_cancel, abs_mul, abs_of_nonneg q0]; exact mul_le_of_le_one_right q0 cc
  have r0' := abs_le.1 r0
  have rp : 1 / 2 ≤ r := by linarith
  have r2 : r ≤ 3 / 2 := by linarith
  refine ⟨by linarith, ?_, ?_, ?_, ?_⟩
  · have sm : ∀ a x y z x' y' z' b x1 y1 z1 : ℝ, a • (!₂[x, y, z] : V3) - !₂[x', y', z'] - b • !₂[x1, y1, z1] =
        !₂[a * x - x' - b * x1, a * y - y' - b * y1, a * z - z' - b * z1] := by
      intros; ext i; fin_cases i <;> simp
    unfold dir
    rw [sm, rotZ_vec, cos_neg, sin_neg, cos_add_pi, sin_add_pi, show lam0 + π + u = lam0 + u + π by ring, cos_add_pi, sin_add_pi, cos_zero, sin_zero,
      cos_add lam0 u, sin_add lam0 u, hlam, cos_sub, sin_sub]
    have s0 := sin_sq_add_cos_sq lam0
    apply vec_eq
    · linear_combination (-q * cos β * cos D + 1 - r * cos (q * β) * cos u) * s0 - hr
    · linear_combination (q * cos β * sin D - r * cos (q * β) * sin u) * s0 - hu
    · ring
  · have c1 := one_sub_sq_div_two_le_cos (x := q * β)
    have c2 := one_sub_sq_div_two_le_cos (x := u)
    have c3 := cos_le_one (q * β)
    have c4 := cos_le_one u
    have s1 : (q * β) ^ 2 ≤ q ^ 2 := sq_le_sq' (by linarith [abs_le.1 vb]) (by linarith [abs_le.1 vb])
    have s2 : u ^ 2 ≤ q ^ 2 := sq_le_sq' (by linarith [abs_le.1 ub]) (by linarith [abs_le.1 ub])
    have q2 : q ^ 2 ≤ 1 / 4 := by nlinarith
    have pr : 1 - q ^ 2 ≤ cos (q * β) * cos u := by nlinarith
    have pr2 : cos (q * β) * cos u ≤ 1 := by nlinarith
    rw [show r - r * (cos (q * β) * cos u) = r * (1 - cos (q * β) * cos u) by ring, abs_of_nonneg (mul_nonneg (by linarith) (by linarith))]
    nlinarith
  · have c1 := one_sub_sq_div_two_le_cos (x := q * β)
    have c3 := cos_le_one (q * β)
    have s1 : (q * β) ^ 2 ≤ q ^ 2 := sq_le_sq' (by linarith [abs_le.1 vb]) (by linarith [abs_le.1 vb])
    have t1 := sub_sin_bound (x := u)
    have t2 : |u| ^ 3 ≤ q ^ 3 := pow_le_pow_left₀ (abs_nonneg u) ub 3
    have t3 : |sin u| ≤ q := (abs_sin_le_abs).trans ub
    have e : u - r * (cos (q * β) * sin u) = (u - sin u) + (1 - r) * sin u + r * (1 - cos (q * β)) * sin u := by ring
    rw [e]
    have a1 := abs_add_le ((u - sin u) + (1 - r) * sin u) (r * (1 - cos (q * β)) * sin u)
    have a2 := abs_add_le (u - sin u) ((1 - r) * sin u)
    have a3 : |(1 - r) * sin u| ≤ q * q := by rw [abs_mul]; exact mul_le_mul r0 t3 (abs_nonneg _) q0
    have a4 : |r * (1 - cos (q * β)) * sin u| ≤ (3 / 2 * (q ^ 2 / 2)) * q := by
      rw [abs_mul]
      refine mul_le_mul ?_ t3 (abs_nonneg _) (by positivity)
      rw [abs_of_nonneg (mul_nonneg (by linarith) (by linarith))]
      exact mul_le_mul r2 (by linarith) (by linarith) (by norm_num)
    have q3 : q ^ 3 ≤ q ^ 2 / 2 := by nlinarith [mul_nonneg q0 q0]
    linarith [sq_nonneg q]
  · have t1 := sub_sin_bound (x := β)
    have t2 := sub_sin_bound (x := q * β)
    have t2' : |q * β| ^ 3 ≤ q ^ 3 := pow_le_pow_left₀ (abs_nonneg _) vb 3
    have t3 : |sin (q * β)| ≤ q := (abs_sin_le_abs).trans vb
    have e : q * sin β - r * sin (q * β) = -(q * (β - sin β)) + (q * β - sin (q * β)) + (1 - r) * sin (q * β) := by ring
    rw [e]
    have a1 := abs_add_le (-(q * (β - sin β)) + (q * β - sin (q * β))) ((1 - r) * sin (q * β))
    have a2 := abs_add_le (-(q * (β - sin β))) (q * β - sin (q * β))
    have a3 : |(1 - r) * sin (q * β)| ≤ q * q := by rw [abs_mul]; exact mul_le_mul r0 t3 (abs_nonneg _) q0
    have a4 : |-(q * (β - sin β))| ≤ q * |β| ^ 3 / 6 := by
      rw [abs_neg, abs_mul, abs_of_nonneg q0, mul_div_assoc]; exact mul_le_mul_of_nonneg_left t1 q0
    have q3 : q ^ 3 ≤ q ^ 2 / 2 := by nlinarith [mul_nonneg q0 q0]
    linarith [sq_nonneg q]

/-- C129.  The heliocentric direction of the Moon used for the Sun's selenographic coordinates: with q the ratio of the distances of the
Moon and the Sun, it is the direction of the difference of the positions, q times that of the Moon less that of the Sun, up to an error of
4q² + q|β|³/6 in position. -/
theorem C129_helio (lam0 R lam β Δ : ℝ) (hR : 0 < R) (hΔ : 0 ≤ Δ) (hq : Δ / (R * AU) ≤ 1 / 2) (hβ : |β| ≤ 1) :
    let q := Δ / (R * AU)
    let h := helio lam0 R lam β Δ
    ∃ r : ℝ, 0 < r ∧ ∃ x y z : ℝ, rotZ (-(lam0 + π)) (q • dir lam β - dir lam0 0 - r • dir h.1 h.2) = !₂[x, y, z] ∧
      |x| ≤ 4 * q ^ 2 ∧ |y| ≤ 4 * q ^ 2 ∧ |z| ≤ 4 * q ^ 2 + q * |β| ^ 3 / 6 := by
  intro q h
  have hAU : 0 < AU := by unfold AU; norm_num
  have q0 : 0 ≤ q := by positivity
  obtain ⟨h1, h2, h3, h4, h5⟩ := helio_core q lam0 lam β (lam0 - lam) _ _ q0 hq hβ (by ring) rfl rfl
  exact ⟨_, h1, _, _, _, h2, h3, h4, h5⟩

/-- The inner product of two optical directions is that of the ecliptic directions. -/
theorem optical_inner (m : Moon) (l1 b1 l2 b2 : ℝ) :
    inner ℝ (dir (m.optical l1 b1).1 (m.optical l1 b1).2.1) (dir (m.optical l2 b2).1 (m.optical l2 b2).2.1) =
      inner ℝ (dir l1 b1) (dir l2 b2) := by
  have h1 := (C128_optical m l1 b1).1
  have h2 := (C128_optical m l2 b2).1
  have e : ∀ x d, dir (x + m.F + π) d = rotZ (m.F + π) (dir x d) := by intro x d; rw [rotZ_dir, add_assoc]
  rw [e] at h1 h2
  rw [← inner_rotZ (m.F + π), h1, h2, inner_neg_neg, inner_rotX]
  have e2 : ∀ x d, dir (x - m.Ω) d = rotZ (-m.Ω) (dir x d) := by intro x d; rw [rotZ_dir, sub_eq_add_neg]
  rw [e2, e2, inner_rotZ]

/-- C129.  The selenographic coordinates of the Sun are those of the Sun's direction in the frame of the lunar equator, apart from the
physical librations (at most a tenth of a degree), but with the longitude of the Sun counted from the true equinox, that of the node from
the mean equinox.  Missing: the nutation is not removed, see the violation. -/
theorem C129_sun_partial (jde : ℝ) (hj : |J2000Century jde| ≤ 20) (earth : ℝ → ℝ × ℝ × ℝ)
    (hq : |(Position jde).2.2 / ((Solar.ApparentVSOP87 earth jde).2.2 * AU)| ≤ 1) :
    let m := newMoon jde
    let s := Solar.ApparentVSOP87 earth jde
    let h := helio s.1 s.2.2 (Position jde).1 (Position jde).2.1 (Position jde).2.2
    let o := m.optical h.1 h.2
    dir (o.1 + m.F + π) o.2.1 = -rotX I (dir (h.1 - m.Ω) h.2) ∧
    |(Physical jde earth).2.2.2.2 - o.2.1| ≤ 0.1 * deg ∧
    ∃ k : ℤ, |(Physical jde earth).2.2.2.1 - o.1 - k * (2 * π)| ≤ 0.1 * deg := by
  intro m s h o
  have hb := (C126_bounds jde hj).1
  have hβ : |h.2| ≤ 6.2 * deg := by
    have : h.2 = (Position jde).2.2 / (s.2.2 * AU) * (Position jde).2.1 := rfl
    rw [this, abs_mul]
    have := mul_le_of_le_one_left (abs_nonneg (Position jde).2.1) hq
    linarith [mdeg_pos]
  obtain ⟨-, -, -, h4, h5⟩ := C128_lib jde hj h.1 h.2 hβ
  exact ⟨(C128_optical m h.1 h.2).1, h4, h5⟩

/-- C129.  The longitude of the Sun includes the nutation, that of the node does not: at some instants (in 2001, for one) the direction of
the Sun from which the coordinates are computed is more than 14 arc seconds from the direction for longitudes counted from the same
equinox. -/
theorem C129_nutation_violation : ∃ jde, |J2000Century jde| ≤ 0.02 ∧ ∀ (earth : ℝ → ℝ × ℝ × ℝ),
    |(Position jde).2.2 / ((Solar.ApparentVSOP87 earth jde).2.2 * AU)| ≤ 0.01 →
    let m := newMoon jde
    let s := Solar.ApparentVSOP87 earth jde
    let h := helio s.1 s.2.2 (Position jde).1 (Position jde).2.1 (Position jde).2.2
    let o := m.optical h.1 h.2
    let o' := m.optical (h.1 - m.Δψ) h.2
    14 * sec ≤ sep o.1 o.2.1 o'.1 o'.2.1 := by
  have hs := nsec_pos
  obtain ⟨T, hT⟩ : ∃ T : ℝ, T = 35.04452 / 1934.136261 := ⟨_, rfl⟩
  obtain ⟨jde, hjd⟩ : ∃ j : ℝ, j = 2451545 + 36525 * T := ⟨_, rfl⟩
  have hJ : J2000Century jde = T := by rw [hjd]; unfold J2000Century; ring
  have hTb : |T| ≤ 0.02 := by rw [hT, abs_of_pos (by positivity)]; norm_num
  refine ⟨jde, by rw [hJ]; exact hTb, fun earth hq => ?_⟩
  have hj : |J2000Century jde| ≤ 20 := by rw [hJ]; linarith
  intro m s h o o'
  -- nutation
  have ψ : |m.Δψ| ≥ 14.9 * sec ∧ |m.Δψ| ≤ 20 * sec := by
    have c := C116_approx jde (by rw [hJ]; linarith)
    have b := (C116_bounds jde).1
    rw [hJ] at b
    change _ ≤ |(Nutation jde).1| ∧ |(Nutation jde).1| ≤ _
    have e : (ApproxNutation jde).1 = (-17.2 - 1.32 * sin (2 * ((280.4665 + 36000.7698 * T) * π / 180)) - 0.23 * sin (2 * ((218.3165 + 481267.8813 * T) * π / 180)) +
        0.21 * sin (2 * ((125.04452 - 1934.136261 * T) * π / 180))) * sec := by
      unfold ApproxNutation
      dsimp only
      have : (jde - 2451545) / 36525 = T := hJ
      rw [this]
      have : (125.04452 - 1934.136261 * T) * π / 180 = π / 2 := by rw [hT]; ring
      rw [this, sin_pi_div_two]; ring
    rw [e] at c
    set x := (Nutation jde).1
    have p : ∀ x, -1 ≤ sin x ∧ sin x ≤ 1 := fun x => ⟨neg_one_le_sin x, sin_le_one x⟩
    have a1 := p (2 * ((280.4665 + 36000.7698 * T) * π / 180))
    have a2 := p (2 * ((218.3165 + 481267.8813 * T) * π / 180))
    have a3 := p (2 * ((125.04452 - 1934.136261 * T) * π / 180))
    generalize sin (2 * ((280.4665 + 36000.7698 * T) * π / 180)) = y1 at *
    generalize sin (2 * ((218.3165 + 481267.8813 * T) * π / 180)) = y2 at *
    generalize sin (2 * ((125.04452 - 1934.136261 * T) * π / 180)) = y3 at *
    rw [abs_le] at c
    constructor
    · rw [le_abs]; right
      nlinarith [c.1]
    · nlinarith
  have hb := (C126_bounds jde hj).1
  have dl : deg < 0.0175 := by unfold deg; linarith [pi_lt_d4]
  have hβ : |h.2| ≤ 0.01 := by
    have : h.2 = (Position jde).2.2 / (s.2.2 * AU) * (Position jde).2.1 := rfl
    rw [this, abs_mul]
    have : |(Position jde).2.1| ≤ 1 := by linarith
    have := mul_le_mul hq this (abs_nonneg _) (by norm_num)
    linarith
  have cb : 0.9999 ≤ cos h.2 := by
    have := one_sub_sq_div_two_le_cos (x := h.2)
    have : h.2 ^ 2 ≤ 0.01 ^ 2 := sq_le_sq' (by linarith [abs_le.1 hβ]) (by linarith [abs_le.1 hβ])
    norm_num at this ⊢
    linarith
  have hin : inner ℝ (dir o.1 o.2.1) (dir o'.1 o'.2.1) = 1 - 2 * (cos h.2 * sin (m.Δψ / 2)) ^ 2 := by
    rw [optical_inner, inner_dir, sub_sub_cancel]
    have e := cos_two_mul (m.Δψ / 2)
    rw [show 2 * (m.Δψ / 2) = m.Δψ by ring] at e
    rw [e]
    have := sin_sq_add_cos_sq h.2
    have := sin_sq_add_cos_sq (m.Δψ / 2)
    generalize sin h.2 = a at *; generalize cos h.2 = b at *; generalize sin (m.Δψ / 2) = c at *; generalize cos (m.Δψ / 2) = d at *
    grind
  have hsep : sep o.1 o.2.1 o'.1 o'.2.1 = arccos (1 - 2 * (cos h.2 * sin (m.Δψ / 2)) ^ 2) := by
    rw [← hin, inner_dir]; exact sep_eq _ _ _ _
  rw [hsep]
  have sl : sec ≤ 0.000005 := by unfold sec; linarith [pi_lt_d2]
  have hcos : 1 - 2 * (cos h.2 * sin (m.Δψ / 2)) ^ 2 ≤ cos (14 * sec) := by
    have e := cos_two_mul (14 * sec / 2)
    rw [show 2 * (14 * sec / 2) = 14 * sec by ring] at e
    have := sin_sq_add_cos_sq (14 * sec / 2)
    have s1 : sin (14 * sec / 2) ≤ 7 * sec := by have := sin_le (x := 14 * sec / 2) (by positivity); linarith
    have s0 : 0 ≤ sin (14 * sec / 2) := sin_nonneg_of_nonneg_of_le_pi (by positivity) (by linarith [pi_gt_three])
    have s2 : 7 * sec ≤ |cos h.2 * sin (m.Δψ / 2)| := by
      rw [abs_mul, abs_of_pos (by linarith : 0 < cos h.2)]
      have t := sub_sin_bound (x := m.Δψ / 2)
      have t2 : |m.Δψ / 2| = |m.Δψ| / 2 := by rw [abs_div]; norm_num
      rw [t2] at t
      have t3 : (|m.Δψ| / 2) ^ 3 ≤ (10 * sec) ^ 3 := pow_le_pow_left₀ (by positivity) (by linarith [ψ.2]) 3
      have t4 : (10 * sec) ^ 3 ≤ 0.01 * sec := by nlinarith [mul_pos hs hs]
      have t5 := abs_sub_abs_le_abs_sub (m.Δψ / 2) (sin (m.Δψ / 2))
      rw [t2] at t5
      nlinarith [ψ.1]
    have : (7 * sec) ^ 2 ≤ (cos h.2 * sin (m.Δψ / 2)) ^ 2 := by
      rw [← sq_abs (cos h.2 * _)]; exact pow_le_pow_left₀ (by positivity) s2 2
    have : sin (14 * sec / 2) ^ 2 ≤ (7 * sec) ^ 2 := pow_le_pow_left₀ s0 s1 2
    nlinarith
  have := arccos_le_arccos hcos
  rwa [arccos_cos (by positivity) (by linarith [pi_gt_three])] at this

/-- C130.  The altitude of the Sun at a site on the Moon is the complement of its angular distance from the zenith of the site. -/
theorem C130_altitude (η θ l0 b0 : ℝ) : SunAltitude η θ l0 b0 = π / 2 - sep η θ l0 b0 := by
  rw [sep_eq, arccos_eq_pi_div_two_sub_arcsin]
  unfold SunAltitude
  dsimp only
  rw [show π / 2 - l0 + η = η - l0 + π / 2 by ring, sin_add_pi_div_two]
  ring_nf

/-- C130.  The Sun is at the zenith of the site with its own coordinates, and on the horizon 90 degrees away along the lunar equator. -/
theorem C130_zenith (l0 b0 : ℝ) : SunAltitude l0 b0 l0 b0 = π / 2 ∧ SunAltitude (l0 + π / 2) 0 l0 b0 = 0 := by
  constructor
  · rw [C130_altitude, sep_eq, sub_self, cos_zero, mul_one]
    rw [show sin b0 * sin b0 + cos b0 * cos b0 = 1 by linear_combination sin_sq_add_cos_sq b0, arccos_one, sub_zero]
  · rw [C130_altitude, sep_eq, add_sub_cancel_left, cos_pi_div_two, sin_zero]
    simp

/-- Daily motion of the Sun in selenographic longitude, 12.19075 degrees. -/
noncomputable def sunRate : ℝ := 12.19075 * deg

/-- The Sun moving uniformly on the lunar equator; at the site at longitude η on the equator it rises at time t0. -/
noncomputable def uniformSun (η t0 t : ℝ) : ℝ × ℝ := (η + π / 2 - sunRate * (t - t0), 0)

theorem sunRate_pos : 0 < sunRate := by unfold sunRate; have := mdeg_pos; positivity

theorem uniform_corr (η θ t0 t : ℝ) :
    srCorr (uniformSun η t0) η θ t = arcsin (cos θ * sin (sunRate * (t - t0))) / cos θ / sunRate := by
  unfold srCorr SunAltitude uniformSun
  dsimp only
  rw [sin_zero, cos_zero, zero_mul, zero_add, one_mul, show π / 2 - (η + π / 2 - sunRate * (t - t0)) + η = sunRate * (t - t0) by ring]
  unfold sunRate
  rw [div_div, div_div, div_div]
  ring_nf

/-- C131.  On the lunar equator, with the Sun in uniform motion, `Sunrise` returns the sunrise at t0 exactly if started within three eighths
of a period of it, and `Sunset` the sunset (half a period later) likewise.  Missing: the documentation promises any date, see the
violation. -/
theorem C131_equator_partial (η t0 t : ℝ) :
    (sunRate * |t - t0| ≤ 3 * π / 4 → Sunrise (uniformSun η t0) η 0 t = t0) ∧
    (sunRate * |t - (t0 + π / sunRate)| ≤ 3 * π / 4 → Sunset (uniformSun η t0) η 0 t = t0 + π / sunRate) := by
  have w := sunRate_pos
  have pp := pi_pos
  have corr : ∀ t, srCorr (uniformSun η t0) η 0 t = arcsin (sin (sunRate * (t - t0))) / sunRate := by
    intro t; rw [uniform_corr, cos_zero, one_mul, div_one]
  have mid : ∀ x, |x| ≤ π / 2 → arcsin (sin x) = x := fun x hx => arcsin_sin (by linarith [abs_le.1 hx]) (by linarith [abs_le.1 hx])
  have hi : ∀ x, π / 2 ≤ x → x ≤ 3 * π / 2 → arcsin (sin x) = π - x := by
    intro x h1 h2; rw [← sin_pi_sub]; exact arcsin_sin (by linarith) (by linarith)
  have lo : ∀ x, -(3 * π / 2) ≤ x → x ≤ -(π / 2) → arcsin (sin x) = -π - x := by
    intro x h1 h2
    have : sin x = sin (-π - x) := by rw [show -π - x = -(x + π) by ring, sin_neg, sin_add_pi, neg_neg]
    rw [this]; exact arcsin_sin (by linarith) (by linarith)
  have step : ∀ x, |x| ≤ 3 * π / 4 → |x - arcsin (sin x)| ≤ π / 2 := by
    intro x hx
    rw [abs_le] at hx
    by_cases a : |x| ≤ π / 2
    · rw [mid x a, sub_self, abs_zero]; linarith
    · rcases lt_abs.1 (not_le.1 a) with b | b
      · rw [hi x b.le (by linarith), abs_le]; constructor <;> linarith
      · rw [lo x (by linarith) (by linarith), abs_le]; constructor <;> linarith
  constructor
  · intro h
    have hx : |sunRate * (t - t0)| ≤ 3 * π / 4 := by rwa [abs_mul, abs_of_pos w]
    have s := step _ hx
    unfold Sunrise
    dsimp only
    rw [corr, corr]
    have e : sunRate * (t - arcsin (sin (sunRate * (t - t0))) / sunRate - t0) = sunRate * (t - t0) - arcsin (sin (sunRate * (t - t0))) := by
      field_simp; ring
    rw [e, mid _ s]
    field_simp; ring
  · intro h
    have hx : |sunRate * (t - t0) - π| ≤ 3 * π / 4 := by
      rw [show sunRate * (t - t0) - π = sunRate * (t - (t0 + π / sunRate)) by field_simp; ring, abs_mul, abs_of_pos w]; exact h
    have sh : ∀ y, arcsin (sin y) = -arcsin (sin (y - π)) := by intro y; rw [sin_sub_pi, arcsin_neg, neg_neg]
    have s := step _ hx
    unfold Sunset
    dsimp only
    rw [corr, corr]
    have e : sunRate * (t + arcsin (sin (sunRate * (t - t0))) / sunRate - t0) - π =
        (sunRate * (t - t0) - π) - arcsin (sin (sunRate * (t - t0) - π)) := by
      rw [sh]; field_simp; ring
    rw [sh (sunRate * (t + _ - t0)), e, mid _ s, sh]
    field_simp; ring

/-- C131.  Started in the late lunar afternoon (the last quarter of the lunar day), `Sunrise` returns a time when the Sun is above the
horizon: neither the nearest sunrise nor any other. -/
theorem C131_afternoon_violation (η t0 t : ℝ) (h1 : 3 * π / 4 < sunRate * (t - t0)) (h2 : sunRate * (t - t0) < π) :
    0 < SunAltitude η 0 (uniformSun η t0 (Sunrise (uniformSun η t0) η 0 t)).1 (uniformSun η t0 (Sunrise (uniformSun η t0) η 0 t)).2 := by
  have w := sunRate_pos
  have pp := pi_pos
  have corr : ∀ t, srCorr (uniformSun η t0) η 0 t = arcsin (sin (sunRate * (t - t0))) / sunRate := by
    intro t; rw [uniform_corr, cos_zero, one_mul, div_one]
  have hi : ∀ x, π / 2 ≤ x → x ≤ 3 * π / 2 → arcsin (sin x) = π - x := by
    intro x h1 h2; rw [← sin_pi_sub]; exact arcsin_sin (by linarith) (by linarith)
  have alt : ∀ t, SunAltitude η 0 (uniformSun η t0 t).1 (uniformSun η t0 t).2 = arcsin (sin (sunRate * (t - t0))) := by
    intro t
    unfold SunAltitude uniformSun
    dsimp only
    rw [sin_zero, cos_zero, zero_mul, zero_add, one_mul, one_mul, show π / 2 - (η + π / 2 - sunRate * (t - t0)) + η = sunRate * (t - t0) by ring]
  rw [alt, arcsin_pos]
  unfold Sunrise
  dsimp only
  rw [corr, corr, hi _ (by linarith) (by linarith)]
  have e : sunRate * (t - (π - sunRate * (t - t0)) / sunRate - t0) = 2 * (sunRate * (t - t0)) - π := by field_simp; ring
  rw [e, hi _ (by linarith) (by linarith)]
  have e2 : sunRate * (t - (π - sunRate * (t - t0)) / sunRate - (π - (2 * (sunRate * (t - t0)) - π)) / sunRate - t0) =
      4 * (sunRate * (t - t0)) - 3 * π := by field_simp; ring
  rw [e2]
  exact sin_pos_of_pos_of_lt_pi (by linarith) (by linarith)

theorem latitude_step (c x : ℝ) (c0 : 0 < c) (c1 : c ≤ 1) (hx : |x| ≤ π / 2) : |x - arcsin (c * sin x) / c| ≤ |x| ^ 3 / 6 := by
  have key : ∀ y, 0 ≤ y → y ≤ π / 2 → |y - arcsin (c * sin y) / c| ≤ y ^ 3 / 6 := by
    intro y h0 h1
    have s0 : 0 ≤ sin y := sin_nonneg_of_nonneg_of_le_pi h0 (by linarith [pi_pos])
    have s1 := sin_le_one y
    have k1 : c * sin y ≤ arcsin (c * sin y) := by
      have : sin (c * sin y) ≤ c * sin y := sin_le (by positivity)
      rw [le_arcsin_iff_sin_le' ⟨by nlinarith [pi_pos], by nlinarith [pi_gt_three]⟩]
      exact this
    have k2 : arcsin (c * sin y) ≤ c * y := by
      rcases c1.eq_or_lt with h | h
      · rw [h, one_mul, one_mul]; exact (arcsin_sin (by linarith) h1).le
      have cy : c * y ≤ π / 2 := by nlinarith
      rw [arcsin_le_iff_le_sin ⟨by nlinarith, by nlinarith⟩ ⟨by nlinarith [pi_pos], cy⟩]
      have := strictConcaveOn_sin_Icc.concaveOn.2 (x := 0) (y := y) ⟨le_rfl, pi_pos.le⟩ ⟨h0, by linarith [pi_pos]⟩
        (by linarith : (0 : ℝ) ≤ 1 - c) c0.le (by ring)
      simpa using this
    have t := sub_sin_bound (x := y)
    rw [abs_of_nonneg h0] at t
    have d1 : sin y ≤ arcsin (c * sin y) / c := by rw [le_div_iff₀ c0]; linarith
    have d2 : arcsin (c * sin y) / c ≤ y := by rw [div_le_iff₀ c0]; linarith
    rw [abs_of_nonneg (by linarith)]
    linarith [(abs_le.1 t).2]
  rcases abs_cases x with ⟨e, h⟩ | ⟨e, h⟩
  · rw [e] at hx ⊢; exact key x h hx
  · rw [e] at hx ⊢
    have := key (-x) (by linarith) hx
    rw [sin_neg, mul_neg, arcsin_neg, show -x - -arcsin (c * sin x) / c = -(x - arcsin (c * sin x) / c) by ring, abs_neg] at this
    exact this

/-- C131.  At any latitude except the poles, with the Sun in uniform motion on the equator: started within three days of sunrise, the result
is within .0001 day of it.  Missing: starts further from sunrise, and a Sun off the equator. -/
theorem C131_latitude_partial (η θ t0 t : ℝ) (hθ : 0 < cos θ) (h : |t - t0| ≤ 3) : |Sunrise (uniformSun η t0) η θ t - t0| ≤ 0.0001 := by
  have w := sunRate_pos
  have wu : sunRate ≤ 0.213 := by unfold sunRate deg; linarith [pi_lt_d4]
  have wl : 0.2 ≤ sunRate := by unfold sunRate deg; linarith [pi_gt_d4]
  have p3 := pi_gt_three
  have c1 := cos_le_one θ
  set x := sunRate * (t - t0) with hx
  have xb : |x| ≤ 0.639 := by
    rw [hx, abs_mul, abs_of_pos w]
    calc sunRate * |t - t0| ≤ 0.213 * 3 := mul_le_mul wu h (abs_nonneg _) (by norm_num)
      _ = 0.639 := by norm_num
  set y := x - arcsin (cos θ * sin x) / cos θ with hy
  have y1 : |y| ≤ 0.0435 := by
    have := latitude_step (cos θ) x hθ c1 (by linarith)
    have : |x| ^ 3 ≤ 0.639 ^ 3 := pow_le_pow_left₀ (abs_nonneg _) xb 3
    norm_num at this
    linarith
  have z1 : |y - arcsin (cos θ * sin y) / cos θ| ≤ 0.000014 := by
    have := latitude_step (cos θ) y hθ c1 (by linarith)
    have : |y| ^ 3 ≤ 0.0435 ^ 3 := pow_le_pow_left₀ (abs_nonneg _) y1 3
    norm_num at this ⊢
    linarith
  have e : Sunrise (uniformSun η t0) η θ t - t0 = (y - arcsin (cos θ * sin y) / cos θ) / sunRate := by
    unfold Sunrise
    dsimp only
    rw [uniform_corr, uniform_corr]
    have e1 : sunRate * (t - arcsin (cos θ * sin (sunRate * (t - t0))) / cos θ / sunRate - t0) = y := by
      rw [hy, hx]; field_simp; ring
    rw [e1, hy, ← hx]
    have : t - t0 = x / sunRate := by rw [hx]; field_simp
    rw [sub_div, sub_div, ← this]; ring
  rw [e, abs_div, abs_of_pos w, div_le_iff₀ w]
  nlinarith

/-- A lunar site at longitude 20° W, two days after sunrise, meets the hypotheses. -/
example : sunRate * |(2 : ℝ) - 0| ≤ 3 * π / 4 := by
  unfold sunRate deg; rw [sub_zero, abs_of_pos (by norm_num)]; linarith [pi_pos]

/-- And fourteen days after sunrise those of the violation. -/
example : 3 * π / 4 < sunRate * (14 - 0) ∧ sunRate * (14 - 0) < π := by
  unfold sunRate deg; constructor <;> linarith [pi_pos]

end Verif.Props
