import Verif.Props.SaturnRing
import Verif.Lemmas.TrigNum
import Verif.Model.Deltat
/-
C139: the physical ephemeris of Mars.
-/
namespace Verif.Props

open Real Verif.Go Verif.Model Verif.Model.PlanetPhys Verif.Spec Verif.Lemmas

/-- The arctangent of position angles without the reduction to [0,2π). -/
theorem limb_atan2 (α δ α0 δ0 : ℝ) :
    let χ := atan2 (cos δ0 * sin (α0 - α)) (sin δ0 * cos δ - cos δ0 * sin δ * cos (α0 - α))
    perp (dir α δ) (dir α0 δ0) = ‖perp (dir α δ) (dir α0 δ0)‖ • (sin χ • east α + cos χ • north α δ) := by
  intro χ
  have hl := (C96_limb α δ α0 δ0).2
  have hsc : sin (Limb α δ α0 δ0) = sin χ ∧ cos (Limb α δ α0 δ0) = cos χ := by
    unfold Limb
    dsimp only
    split_ifs
    · rw [sin_add_two_pi, cos_add_two_pi]; exact ⟨rfl, rfl⟩
    · exact ⟨rfl, rfl⟩
  rw [hsc.1, hsc.2] at hl
  exact hl

/-- The rotation from the ecliptic to the equator, of directions. -/
theorem ecl_rotX (l β ε : ℝ) (hβ : 0 < cos β) :
    dir (Coord.EclToEq l β (sin ε) (cos ε)).1 (Coord.EclToEq l β (sin ε) (cos ε)).2 = rotX ε (dir l β) := by
  rw [C46_eclToEq_rotation l β (sin ε) (cos ε) (sin_sq_add_cos_sq ε) hβ]
  unfold dir; rw [rotX_vec]

/-- A vector of three coordinates with equatorial coordinates found by two arctangents. -/
theorem eq_dir (p : Pass) (ε : ℝ) (h : p.x ≠ 0 ∨ p.y * cos ε - p.z * sin ε ≠ 0) :
    rotX ε (gvec p) = p.Δ • dir (atan2 (p.y * cos ε - p.z * sin ε) p.x)
      (arctan ((p.y * sin ε + p.z * cos ε) / Angle.hypot p.x (p.y * cos ε - p.z * sin ε))) := by
  have hd := dir_arctan (p.y * sin ε + p.z * cos ε) h
  have hn : p.x * p.x + (p.y * cos ε - p.z * sin ε) * (p.y * cos ε - p.z * sin ε) + (p.y * sin ε + p.z * cos ε) * (p.y * sin ε + p.z * cos ε) =
      p.x * p.x + p.y * p.y + p.z * p.z := by
    linear_combination (p.y * p.y + p.z * p.z) * sin_sq_add_cos_sq ε
  rw [hn] at hd
  unfold Pass.Δ
  rw [hd]
  unfold gvec
  rw [rotX_vec]
  apply vec_eq <;> ring

/-- Mars's pole is never near the pole of the ecliptic in the range of dates. -/
theorem mars_β0 (jde : ℝ) (hT : |J2000Century jde| ≤ 100) : 0 < cos (Mars.β0 jde) := by
  obtain ⟨a, b⟩ := abs_le.1 hT
  have hpi := pi_pos
  apply cos_pos_of_mem_Ioo
  unfold Mars.β0 deg
  constructor <;> nlinarith

/-- The declination of the Earth found from ecliptic coordinates is the one the equatorial coordinates give. -/
theorem sin_of_inner (A D a d : ℝ) : -sin D * sin d - cos D * cos d * cos (A - a) = -inner ℝ (dir A D) (dir a d) := by
  rw [inner_dir]; ring

/-- C139.  Planetographic frame.  Let n be the direction of Mars's north pole (42.1), in equatorial coordinates, and A, D its right ascension and
declination.  The vector from Mars to the Earth has latitude DE above Mars's equator and longitude ζ from the equator's node; ω, in [0,2π), is the
angle from there to the prime meridian at the time the light left Mars: the meridian turns 350.89200025° in a day. -/
theorem C139_frame (e m : Planet) (jde : ℝ) (hT : |J2000Century jde| ≤ 100)
    (h0 : (Mars.mars e m jde).x ≠ 0 ∨ (Mars.mars e m jde).y ≠ 0)
    (h : (Mars.mars e m jde).x ≠ 0 ∨
      (Mars.mars e m jde).y * cos (Nutation.MeanObliquity jde) - (Mars.mars e m jde).z * sin (Nutation.MeanObliquity jde) ≠ 0) :
    let p := Mars.mars e m jde
    let r := Mars.Physical e m jde
    let ε := Nutation.MeanObliquity jde
    ∃ A D ζ : ℝ, dir A D = rotX ε (dir (Mars.lam0 jde) (Mars.β0 jde)) ∧
      rotX ε (-gvec p) = ‖gvec p‖ • fromPole A D ζ r.DE ∧ |r.DE| ≤ π / 2 ∧ 0 ≤ r.ω ∧ r.ω < 2 * π ∧
      ∃ k : ℤ, r.ω = (11.504 + 350.89200025 * (jde - 0.0057755183 * ‖gvec p‖ - 2433282.5)) * π / 180 - ζ + k * (2 * π) := by
  intro p r ε
  obtain ⟨q0, hq0⟩ : ∃ q0, q0 = Coord.EclToEq (Mars.lam0 jde) (Mars.β0 jde) (sin ε) (cos ε) := ⟨_, rfl⟩
  have d0 := ecl_rotX (Mars.lam0 jde) (Mars.β0 jde) ε (mars_β0 jde hT)
  rw [← hq0] at d0
  have hΔ := pass_Δ_pos p h0
  have hg := gvec_dir p h0
  have he := eq_dir p ε h
  obtain ⟨α, hα⟩ : ∃ α, α = Mars.α ε p := ⟨_, rfl⟩
  obtain ⟨δ, hδ⟩ : ∃ δ, δ = Mars.δ ε p := ⟨_, rfl⟩
  have he' : rotX ε (gvec p) = p.Δ • dir α δ := by rw [hα, hδ]; exact he
  have hin : inner ℝ (dir q0.1 q0.2) (dir α δ) = inner ℝ (dir (Mars.lam0 jde) (Mars.β0 jde)) (dir p.lam p.β) := by
    have h1 : p.Δ * inner ℝ (dir q0.1 q0.2) (dir α δ) = p.Δ * inner ℝ (dir (Mars.lam0 jde) (Mars.β0 jde)) (dir p.lam p.β) := by
      rw [← inner_smul_right, ← he', d0, inner_rotX, hg, inner_smul_right]
    exact mul_left_cancel₀ hΔ.ne' h1
  have hDE : r.DE = arcsin (-sin q0.2 * sin δ - cos q0.2 * cos δ * cos (q0.1 - α)) := by
    rw [sin_of_inner, hin, ← sin_of_inner]; rfl
  obtain ⟨ζ, hζ⟩ : ∃ ζ, ζ = atan2 (sin q0.2 * cos δ * cos (q0.1 - α) - sin δ * cos q0.2) (cos δ * sin (q0.1 - α)) := ⟨_, rfl⟩
  have hω : r.ω = mod1 (11.504 * deg + 350.89200025 * deg * (jde - Elliptic.LightTime p.Δ - 2433282.5) - ζ) := by
    rw [hζ, hq0, hα, hδ]; rfl
  obtain ⟨w1, w2, k, hk⟩ := mod1_eq (11.504 * deg + 350.89200025 * deg * (jde - Elliptic.LightTime p.Δ - 2433282.5) - ζ)
  rw [← hω] at w1 w2 hk
  refine ⟨q0.1, q0.2, ζ, d0, ?_, ?_, w1, w2, -k, ?_⟩
  · have e1 : rotX ε (-gvec p) = -rotX ε (gvec p) := by
      unfold gvec; rw [neg_vec, rotX_vec, rotX_vec, neg_vec]; apply vec_eq <;> ring
    rw [e1, he', gvec_norm, ← smul_neg, hDE, hζ]
    congr 1
    exact neg_dir_fromPole _ _ _ _
  · rw [hDE, abs_le]; exact ⟨neg_pi_div_two_le_arcsin _, arcsin_le_pi_div_two _⟩
  · rw [gvec_norm]
    unfold deg Elliptic.LightTime at hk
    push_cast
    linear_combination -hk

/-- C139.  DS is the latitude of the Sun: its sine is the component of the pole's direction along the line from Mars, placed as the Sun's aberration
moves it, to the Sun. -/
theorem C139_sun (e m : Planet) (jde : ℝ) :
    let p := Mars.mars e m jde
    let r := Mars.Physical e m jde
    |r.DS| ≤ π / 2 ∧ sin r.DS = inner ℝ (dir (Mars.lam0 jde) (Mars.β0 jde)) (-dir (Mars.l' p) (Mars.b' jde p)) := by
  intro p r
  have hDS : r.DS = arcsin (-sin (Mars.β0 jde) * sin (Mars.b' jde p) - cos (Mars.β0 jde) * cos (Mars.b' jde p) * cos (Mars.lam0 jde - Mars.l' p)) := rfl
  rw [sin_of_inner] at hDS
  have hb := abs_le.1 (abs_real_inner_le_norm (dir (Mars.lam0 jde) (Mars.β0 jde)) (dir (Mars.l' p) (Mars.b' jde p)))
  rw [norm_dir, norm_dir, mul_one] at hb
  constructor
  · rw [hDS, abs_le]; exact ⟨neg_pi_div_two_le_arcsin _, arcsin_le_pi_div_two _⟩
  · rw [hDS, sin_arcsin (by linarith [hb.2]) (by linarith [hb.1]), inner_neg_right]

/-- The apparent ecliptic direction of Mars that P refers to. -/
noncomputable def marsApparent (e m : Planet) (jde : ℝ) : ℝ × ℝ :=
  let p := Mars.mars e m jde
  let l0 := (Mars.earth e jde).1
  (p.lam + 0.005693 * deg * cos (l0 - p.lam) / cos p.β + (Nutation.Nutation jde).1,
   p.β + 0.005693 * deg * sin (l0 - p.lam) * sin p.β)

/-- C139.  P, in [0,2π), is the position angle of Mars's north pole at Mars's apparent place, counted from north through east. -/
theorem C139_position_angle (e m : Planet) (jde : ℝ) (hT : |J2000Century jde| ≤ 100) (hβ : 0 < cos (marsApparent e m jde).2) :
    let ε := Nutation.MeanObliquity jde + (Nutation.Nutation jde).2
    let n := rotX ε (dir (Mars.lam0 jde + (Nutation.Nutation jde).1) (Mars.β0 jde))
    let P := (Mars.Physical e m jde).P
    0 ≤ P ∧ P < 2 * π ∧
    ∃ α δ : ℝ, dir α δ = rotX ε (dir (marsApparent e m jde).1 (marsApparent e m jde).2) ∧
      perp (dir α δ) n = ‖perp (dir α δ) n‖ • (sin P • east α + cos P • north α δ) := by
  intro ε n P
  obtain ⟨q, hq⟩ : ∃ q, q = Coord.EclToEq (marsApparent e m jde).1 (marsApparent e m jde).2 (sin ε) (cos ε) := ⟨_, rfl⟩
  obtain ⟨q0, hq0⟩ : ∃ q0, q0 = Coord.EclToEq (Mars.lam0 jde + (Nutation.Nutation jde).1) (Mars.β0 jde) (sin ε) (cos ε) := ⟨_, rfl⟩
  have d1 := ecl_rotX (marsApparent e m jde).1 (marsApparent e m jde).2 ε hβ
  have d0 := ecl_rotX (Mars.lam0 jde + (Nutation.Nutation jde).1) (Mars.β0 jde) ε (mars_β0 jde hT)
  rw [← hq] at d1
  rw [← hq0] at d0
  have hP : P = Limb q.1 q.2 q0.1 q0.2 := by rw [hq, hq0]; rfl
  obtain ⟨⟨l1, l2⟩, l3⟩ := C96_limb q.1 q.2 q0.1 q0.2
  rw [← hP] at l1 l2 l3
  refine ⟨l1, l2, q.1, q.2, d1, ?_⟩
  show perp _ (rotX ε _) = ‖perp _ (rotX ε _)‖ • _
  rw [← d0]
  exact l3

/-- C139.  Q, in (0,2π], points from the centre of the disk away from the Sun. -/
theorem C139_defect (e m : Planet) (jde : ℝ) 
    (h : (Mars.mars e m jde).x ≠ 0 ∨
      (Mars.mars e m jde).y * cos (Nutation.MeanObliquity jde) - (Mars.mars e m jde).z * sin (Nutation.MeanObliquity jde) ≠ 0) :
    let p := Mars.mars e m jde
    let Q := (Mars.Physical e m jde).Q
    let sun := rotX (Nutation.MeanObliquity jde + (Nutation.Nutation jde).2) (-dir (Mars.earth e jde).1 0)
    0 < Q ∧ Q ≤ 2 * π ∧
    ∃ α δ : ℝ, rotX (Nutation.MeanObliquity jde) (gvec p) = ‖gvec p‖ • dir α δ ∧
      perp (dir α δ) sun = -(‖perp (dir α δ) sun‖ • (sin Q • east α + cos Q • north α δ)) := by
  intro p Q sun
  obtain ⟨ε, hεv⟩ : ∃ ε, ε = Nutation.MeanObliquity jde + (Nutation.Nutation jde).2 := ⟨_, rfl⟩
  obtain ⟨l0, hl0⟩ : ∃ l0, l0 = (Mars.earth e jde).1 := ⟨_, rfl⟩
  obtain ⟨α, hα⟩ : ∃ α, α = Mars.α (Nutation.MeanObliquity jde) p := ⟨_, rfl⟩
  obtain ⟨δ, hδ⟩ : ∃ δ, δ = Mars.δ (Nutation.MeanObliquity jde) p := ⟨_, rfl⟩
  obtain ⟨αs, hαs⟩ : ∃ αs, αs = atan2 (cos ε * sin (l0 + π)) (cos (l0 + π)) := ⟨_, rfl⟩
  obtain ⟨δs, hδs⟩ : ∃ δs, δs = arcsin (sin ε * sin (l0 + π)) := ⟨_, rfl⟩
  have he' : rotX (Nutation.MeanObliquity jde) (gvec p) = p.Δ • dir α δ := by rw [hα, hδ]; exact eq_dir p _ h
  have hQ : Q = atan2 (cos δs * sin (αs - α)) (sin δs * cos δ - cos δs * sin δ * cos (αs - α)) + π := by
    rw [hδs, hαs, hα, hδ, hεv, hl0]; rfl
  have hs : dir αs δs = sun := by
    show _ = rotX _ (-dir (Mars.earth e jde).1 0)
    rw [← hεv, ← hl0, hαs, hδs, dir_of_xyz]
    · unfold dir
      rw [neg_vec, rotX_vec, sin_add_pi, cos_add_pi]
      apply vec_eq <;> simp
    · linear_combination sin (l0 + π) ^ 2 * sin_sq_add_cos_sq ε + sin_sq_add_cos_sq (l0 + π)
  obtain ⟨r1, r2⟩ := atan2_range (cos δs * sin (αs - α)) (sin δs * cos δ - cos δs * sin δ * cos (αs - α))
  refine ⟨by rw [hQ]; linarith, by rw [hQ]; linarith, α, δ, by rw [gvec_norm]; exact he', ?_⟩
  have hl := limb_atan2 α δ αs δs
  dsimp only at hl
  rw [hs] at hl
  rw [hQ, sin_add_pi, cos_add_pi]
  rw [← smul_neg, neg_add, ← neg_smul, ← neg_smul, neg_neg, neg_neg]
  exact hl

/-- C139.  The diameter is 9.36″ at unit distance; the illuminated fraction is (1 + cos i)/2, i being the angle between the directions from Mars to
the Sun and to the Earth, but for a term in the square of the Earth's latitude; the defect is the dark part of the diameter. -/
theorem C139_disk (e m : Planet) (jde : ℝ) (h0 : (Mars.mars e m jde).x ≠ 0 ∨ (Mars.mars e m jde).y ≠ 0) (hr : 0 < (Mars.mars e m jde).r) :
    let p := Mars.mars e m jde
    let E := Mars.earth e jde
    let r := Mars.Physical e m jde
    r.d * ‖gvec p‖ = 9.36 * (π / 180 / 3600) ∧ 0 < r.d ∧ r.q = r.d * (1 - r.k) ∧
    r.k = (1 + cos (InnerProductGeometry.angle (-dir p.l p.b) (-gvec p))) / 2 + (E.2.2 * sin E.2.1) ^ 2 / (4 * p.r * ‖gvec p‖) := by
  intro p E r
  have hΔ := pass_Δ_pos p h0
  have hs : 0 < Nutation.sec := by unfold Nutation.sec; positivity
  have hd : r.d = 9.36 * Nutation.sec / p.Δ := rfl
  refine ⟨?_, ?_, rfl, ?_⟩
  · rw [hd, gvec_norm, div_mul_cancel₀ _ hΔ.ne']; rfl
  · rw [hd]; positivity
  · have hk : r.k = Illum.Fraction p.r p.Δ E.2.2 := rfl
    rw [hk, InnerProductGeometry.angle_neg_neg, InnerProductGeometry.cos_angle, gvec_norm, norm_dir, one_mul]
    have hx : p.x = p.r * cos p.b * cos p.l - E.2.2 * cos E.1 := rfl
    have hy : p.y = p.r * cos p.b * sin p.l - E.2.2 * sin E.1 := rfl
    have hz : p.z = p.r * sin p.b - E.2.2 * sin E.2.1 := rfl
    have hΔ2 : p.Δ ^ 2 = p.x * p.x + p.y * p.y + p.z * p.z := by
      unfold Pass.Δ
      rw [sq_sqrt]
      nlinarith [mul_self_nonneg p.x, mul_self_nonneg p.y, mul_self_nonneg p.z]
    unfold gvec dir Illum.Fraction
    rw [inner_vec]
    have hr' : p.r ≠ 0 := hr.ne'
    have e1 := sin_sq_add_cos_sq p.l
    have e2 := sin_sq_add_cos_sq p.b
    have e3 := sin_sq_add_cos_sq E.1
    have e4 : E.2.2 ^ 2 = (p.r * cos p.b * cos p.l - p.x) ^ 2 + (p.r * cos p.b * sin p.l - p.y) ^ 2 := by
      rw [hx, hy]; linear_combination (-E.2.2 ^ 2) * e3
    have e5 : E.2.2 * sin E.2.1 = p.r * sin p.b - p.z := by rw [hz]; ring
    have key : (p.r + p.Δ) * (p.r + p.Δ) - E.2.2 * E.2.2 = 2 * p.r * p.Δ +
        2 * p.r * (p.x * (cos p.b * cos p.l) + p.y * (cos p.b * sin p.l) + p.z * sin p.b) + (E.2.2 * sin E.2.1) ^ 2 := by
      rw [e5]
      linear_combination hΔ2 - e4 - p.r ^ 2 * e2 - p.r ^ 2 * cos p.b ^ 2 * e1
    dsimp only
    rw [key, div_add_div _ _ two_ne_zero (by positivity), div_eq_div_iff (by positivity) (by positivity)]
    field_simp
    ring

/-- A planet standing in longitude 0.09033″ on the ecliptic, at distance r: after ToFK5, at 2000.0, its longitude is 0. -/
noncomputable def still (r : ℝ) : Planet := fun _ => (0.09033 * Nutation.sec, 0, r)

theorem still_fk5 (r : ℝ) : ∃ b, |b| ≤ 0.0000004 ∧ ∀ t, fk5At (still r) t 2451545 = (0, b, r) := by
  refine ⟨_, tiny_fk5 (0.09033 * Nutation.sec), fun t => ?_⟩
  unfold fk5At still PlanetPos.ToFK5
  dsimp only
  rw [cent0, tan_zero]
  simp only [mul_zero, add_zero, zero_mul, zero_div, sub_zero, zero_add]
  refine Prod.ext ?_ rfl
  dsimp only
  ring

/-- The Earth and Mars in line, at distances 1 and 1.5: the hypotheses of the theorems of C139 are met. -/
theorem mars_example :
    let p := Mars.mars (still 1) (still 1.5) 2451545
    |J2000Century 2451545| ≤ 100 ∧ p.x ≠ 0 ∧ 0 < p.r ∧ 0 < cos (marsApparent (still 1) (still 1.5) 2451545).2 := by
  intro p
  obtain ⟨b0, hb0, h0⟩ := still_fk5 1
  obtain ⟨b, hb, h1⟩ := still_fk5 1.5
  have hp : p = ⟨0, b, 1.5, 1.5 * cos b * cos 0 - 1 * cos 0, 1.5 * cos b * sin 0 - 1 * sin 0, 1.5 * sin b - 1 * sin b0⟩ := by
    show Mars.mars _ _ _ = _
    unfold Mars.mars passes pass Mars.earth
    dsimp only
    rw [h1, h0]
  have hx : p.x = 1.5 * cos b - 1 := by rw [hp]; simp
  have hy : p.y = 0 := by rw [hp]; simp
  have hz : p.z = 1.5 * sin b - sin b0 := by rw [hp]; simp
  have cb := one_sub_sq_div_two_le_cos (x := b)
  have b1 := abs_le.1 hb
  have s0 := abs_le.1 ((abs_sin_le_abs (x := b0)).trans hb0)
  have s1 := abs_le.1 ((abs_sin_le_abs (x := b)).trans hb)
  have xp : 0.4 < p.x := by rw [hx]; nlinarith
  refine ⟨by rw [cent0]; norm_num, by linarith, by rw [hp]; norm_num, ?_⟩
  have hβ : |p.β| ≤ π / 4 := by
    unfold Pass.β Angle.hypot
    rw [hy]
    have e : sqrt (p.x ^ 2 + 0 ^ 2) = p.x := by rw [show p.x ^ 2 + 0 ^ 2 = p.x ^ 2 by ring, sqrt_sq (by linarith)]
    have q : |p.z / sqrt (p.x ^ 2 + 0 ^ 2)| ≤ 1 := by
      rw [e, abs_div, abs_of_pos (by linarith : 0 < p.x), div_le_one (by linarith), hz, abs_le]
      constructor <;> linarith
    obtain ⟨q1, q2⟩ := abs_le.1 q
    rw [abs_le]
    constructor
    · have := arctan_mono q1
      rw [arctan_neg, arctan_one] at this
      exact this
    · have := arctan_mono q2
      rw [arctan_one] at this
      exact this
  obtain ⟨t1, t2⟩ := abs_le.1 hβ
  have hpi := pi_pos
  apply cos_pos_of_mem_Ioo
  have hm : (marsApparent (still 1) (still 1.5) 2451545).2 =
      p.β + 0.005693 * deg * (sin ((Mars.earth (still 1) 2451545).1 - p.lam) * sin p.β) := by
    unfold marsApparent
    dsimp only
    ring
  have w : |sin ((Mars.earth (still 1) 2451545).1 - p.lam) * sin p.β| ≤ 1 := by
    rw [abs_mul]
    exact mul_le_one₀ (abs_sin_le_one _) (abs_nonneg _) (abs_sin_le_one _)
  obtain ⟨w1, w2⟩ := abs_le.1 w
  rw [hm]
  unfold deg
  constructor <;> nlinarith

theorem mul_bounds {x y a b c d : ℝ} (h0 : 0 ≤ a) (h1 : a ≤ x ∧ x ≤ b) (h2 : 0 ≤ c) (h3 : c ≤ y ∧ y ≤ d) : a * c ≤ x * y ∧ x * y ≤ b * d :=
  ⟨mul_le_mul h1.1 h3.1 h2 (h0.trans h1.1), mul_le_mul h1.2 h3.2 (h2.trans h3.1) (h0.trans (h1.1.trans h1.2))⟩

set_option maxHeartbeats 1000000 in
/-- C139.  The pole (42.1) is that of Mars: for a century on both sides of J2000 it makes an angle of 25.1° to 25.3° with the pole of the orbit of Mars as
package planetelements gives it (the obliquity of Mars, 25.19°). -/
theorem C139_obliquity (jde : ℝ) (hT : |J2000Century jde| ≤ 1) :
    ∃ Ω i, PlanetElements.Node 3 jde = some Ω ∧ PlanetElements.Inc 3 jde = some i ∧
      25.1 * deg ≤ InnerProductGeometry.angle (dir (Mars.lam0 jde) (Mars.β0 jde)) (dir (Ω - π / 2) (π / 2 - i)) ∧
      InnerProductGeometry.angle (dir (Mars.lam0 jde) (Mars.β0 jde)) (dir (Ω - π / 2) (π / 2 - i)) ≤ 25.3 * deg := by
  obtain ⟨Ω, hΩ⟩ : ∃ Ω, PlanetElements.Node 3 jde = some Ω := ⟨_, rfl⟩
  obtain ⟨i, hi⟩ : ∃ i, PlanetElements.Inc 3 jde = some i := ⟨_, rfl⟩
  refine ⟨Ω, i, hΩ, hi, ?_⟩
  obtain ⟨T, hTe⟩ : ∃ T, T = J2000Century jde := ⟨_, rfl⟩
  have hΩ' : Ω = hornerR T [49.558093, 0.7720959, 0.00001557, 0.000002267] * deg := by
    have := Option.some.inj hΩ
    rw [← this, hTe]
    simp only [PlanetElements.angleFromDeg, hornerR, List.foldl, List.foldr]
    unfold deg; ring
  have hi' : i = hornerR T [1.849726, -0.0006011, 0.00001276, -0.000000007] * deg := by
    have := Option.some.inj hi
    rw [← this, hTe]
    simp only [PlanetElements.angleFromDeg, hornerR, List.foldl, List.foldr]
    unfold deg; ring
  simp only [hornerR, List.foldr] at hΩ' hi'
  rw [← hTe] at hT
  obtain ⟨t1, t2⟩ := abs_le.1 hT
  obtain ⟨d1, d2⟩ := deg_num
  obtain ⟨r1, r2⟩ := sqrt3_num
  have hd0 : 0 < deg := by linarith
  have hT2 : T ^ 2 ≤ 1 := by nlinarith
  have hT3 : |T ^ 3| ≤ 1 := by rw [abs_pow]; exact pow_le_one₀ (abs_nonneg _) hT
  rw [abs_le] at hT3
  have h60 : π / 3 = 60 * deg := by unfold deg; ring
  -- the inclination
  obtain ⟨y, hy⟩ : ∃ y, y = (((0 * T + -0.000000007) * T + 0.00001276) * T + -0.0006011) * T + 1.849726 := ⟨_, rfl⟩
  have y1 : 1.849 ≤ y ∧ y ≤ 1.8505 := by rw [hy]; constructor <;> nlinarith [hT3.1, hT3.2, sq_nonneg T]
  obtain ⟨i1, i2, i3, i4⟩ := small_num (x := i) (lo := 0.03227) (hi := 0.0323) (by norm_num) (by rw [hi', ← hy]; nlinarith) (by rw [hi', ← hy]; nlinarith) (by norm_num)
  -- the latitude of the pole
  obtain ⟨b1, b2, b3, b4⟩ := small_num (x := Mars.β0 jde - π / 3) (lo := 0.05720) (hi := 0.05735) (by norm_num)
    (by rw [h60]; unfold Mars.β0; rw [← hTe]; nlinarith) (by rw [h60]; unfold Mars.β0; rw [← hTe]; nlinarith) (by norm_num)
  obtain ⟨x, hx⟩ : ∃ x, x = Mars.β0 jde - π / 3 := ⟨_, rfl⟩
  rw [← hx] at b1 b2 b3 b4
  have sb : sin (Mars.β0 jde) = sqrt 3 / 2 * cos x + 1 / 2 * sin x := by
    rw [show Mars.β0 jde = π / 3 + x by rw [hx]; ring, sin_add, sin_pi_div_three, cos_pi_div_three]
  have cb : cos (Mars.β0 jde) = 1 / 2 * cos x - sqrt 3 / 2 * sin x := by
    rw [show Mars.β0 jde = π / 3 + x by rw [hx]; ring, cos_add, sin_pi_div_three, cos_pi_div_three]
  -- the difference of longitudes
  obtain ⟨w, hw⟩ : ∃ w, w = (((0 * T + 0.000002267) * T + 0.00001557) * T + 0.7720959) * T + 49.558093 := ⟨_, rfl⟩
  have w1 : |w - 0.7720959 * T - 49.558093| ≤ 0.0001 := by rw [hw, abs_le]; constructor <;> nlinarith [hT3.1, hT3.2, sq_nonneg T]
  rw [abs_le] at w1
  obtain ⟨u, hu⟩ : ∃ u, u = Mars.lam0 jde - Ω - 5 * (π / 3) := ⟨_, rfl⟩
  have hu' : u = (352.9065 + 1.1733 * T - w - 300) * deg := by rw [hu, hΩ', ← hw, h60]; unfold Mars.lam0; rw [← hTe]; ring
  have u1 : 2.94 ≤ 352.9065 + 1.1733 * T - w - 300 ∧ 352.9065 + 1.1733 * T - w - 300 ≤ 3.76 := by constructor <;> linarith
  obtain ⟨v1, v2, v3, v4⟩ := small_num (x := u) (lo := 0.0513) (hi := 0.0657) (by norm_num) (by rw [hu']; nlinarith) (by rw [hu']; nlinarith) (by norm_num)
  have su : sin (Mars.lam0 jde - Ω) = -(sqrt 3 / 2 * cos u) + 1 / 2 * sin u := by
    rw [show Mars.lam0 jde - Ω = (u - π / 3) + 2 * π by rw [hu]; ring, sin_add_two_pi, sin_sub, sin_pi_div_three, cos_pi_div_three]
    ring
  have e : inner ℝ (dir (Mars.lam0 jde) (Mars.β0 jde)) (dir (Ω - π / 2) (π / 2 - i)) =
      sin (Mars.β0 jde) * cos i - cos (Mars.β0 jde) * sin i * sin (Mars.lam0 jde - Ω) := by
    rw [inner_dir, sin_pi_div_two_sub, cos_pi_div_two_sub, show Mars.lam0 jde - (Ω - π / 2) = (Mars.lam0 jde - Ω) + π / 2 by ring, cos_add_pi_div_two]
    ring
  have m1 := mul_bounds (x := sqrt 3) (y := cos x) (by norm_num) ⟨r1, r2⟩ (by norm_num) ⟨b3, b4⟩
  have m2 := mul_bounds (x := sqrt 3) (y := sin x) (by norm_num) ⟨r1, r2⟩ (by norm_num) ⟨b1, b2⟩
  have m3 := mul_bounds (x := sqrt 3) (y := cos u) (by norm_num) ⟨r1, r2⟩ (by norm_num) ⟨v3, v4⟩
  have B1 : 0.8931 ≤ sin (Mars.β0 jde) ∧ sin (Mars.β0 jde) ≤ 0.8934 := by rw [sb]; constructor <;> linarith [m1.1, m1.2]
  have B2 : 0.4494 ≤ cos (Mars.β0 jde) ∧ cos (Mars.β0 jde) ≤ 0.4498 := by rw [cb]; constructor <;> linarith [m2.1, m2.2]
  have B3 : 0.831 ≤ -sin (Mars.lam0 jde - Ω) ∧ -sin (Mars.lam0 jde - Ω) ≤ 0.8405 := by rw [su]; constructor <;> linarith [m3.1, m3.2]
  have B4 : 0.99947 ≤ cos i ∧ cos i ≤ 0.99949 := by constructor <;> linarith
  have B5 : 0.03226 ≤ sin i ∧ sin i ≤ 0.0323 := by constructor <;> linarith
  have hip : 0.9045 ≤ inner ℝ (dir (Mars.lam0 jde) (Mars.β0 jde)) (dir (Ω - π / 2) (π / 2 - i)) ∧
      inner ℝ (dir (Mars.lam0 jde) (Mars.β0 jde)) (dir (Ω - π / 2) (π / 2 - i)) ≤ 0.9053 := by
    rw [e]
    have q1 := mul_bounds (by norm_num) B2 (by norm_num) B5
    have q2 := mul_bounds (by norm_num) q1 (by norm_num) B3
    have q3 := mul_bounds (by norm_num) B1 (by norm_num) B4
    constructor <;> linarith [q2.1, q2.2, q3.1, q3.2]
  obtain ⟨θ, hθ⟩ : ∃ θ, θ = InnerProductGeometry.angle (dir (Mars.lam0 jde) (Mars.β0 jde)) (dir (Ω - π / 2) (π / 2 - i)) := ⟨_, rfl⟩
  have hc : cos θ = inner ℝ (dir (Mars.lam0 jde) (Mars.β0 jde)) (dir (Ω - π / 2) (π / 2 - i)) := by
    rw [hθ, InnerProductGeometry.cos_angle, norm_dir, norm_dir]; simp
  rw [← hc] at hip
  rw [← hθ]
  have θ0 : 0 ≤ θ := by rw [hθ]; exact InnerProductGeometry.angle_nonneg _ _
  have θ1 : θ ≤ π := by rw [hθ]; exact InnerProductGeometry.angle_le_pi _ _
  have h30 : π / 6 = 30 * deg := by unfold deg; ring
  have hp := pi_gt_three
  have num : ∀ a : ℝ, cos (30 * deg - a) = sqrt 3 / 2 * cos a + 1 / 2 * sin a := by
    intro a
    rw [← h30, cos_sub, cos_pi_div_six, sin_pi_div_six]
  constructor
  · by_contra hlt
    push Not at hlt
    have := cos_lt_cos_of_nonneg_of_le_pi θ0 (by unfold deg; linarith) hlt
    obtain ⟨a1, a2, a3, a4⟩ := small_num (x := 4.9 * deg) (lo := 0.0855) (hi := 0.0856) (by norm_num) (by linarith) (by linarith) (by norm_num)
    rw [show 25.1 * deg = 30 * deg - 4.9 * deg by ring, num] at this
    have m := mul_bounds (x := sqrt 3) (y := cos (4.9 * deg)) (by norm_num) ⟨r1, r2⟩ (by norm_num) ⟨a3, a4⟩
    linarith [m.1, m.2]
  · by_contra hlt
    push Not at hlt
    have := cos_lt_cos_of_nonneg_of_le_pi (by linarith) θ1 hlt
    obtain ⟨a1, a2, a3, a4⟩ := small_num (x := 4.7 * deg) (lo := 0.082) (hi := 0.0821) (by norm_num) (by linarith) (by linarith) (by norm_num)
    rw [show 25.3 * deg = 30 * deg - 4.7 * deg by ring, num] at this
    have m := mul_bounds (x := sqrt 3) (y := cos (4.7 * deg)) (by norm_num) ⟨r1, r2⟩ (by norm_num) ⟨a3, a4⟩
    linarith [m.1, m.2]

/-- J2000. -/
example : |J2000Century 2451545| ≤ 1 := by unfold J2000Century; norm_num

end Verif.Props
