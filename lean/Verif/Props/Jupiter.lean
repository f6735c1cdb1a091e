import Verif.Props.Mars
import Verif.Props.Nutation
/-
C140: the physical ephemeris of Jupiter, function Physical.
-/
namespace Verif.Props

open Real Verif.Go Verif.Model Verif.Model.PlanetPhys Verif.Spec Verif.Lemmas

/-- The sine of the correction for phase: half of 1 − cos i, i being the angle between the directions from the planet to the Sun and to the Earth,
but for a term in the square of the Earth's latitude. -/
theorem phase_term (planet : Planet) (jde Δ0 : ℝ) (E : ℝ × ℝ × ℝ) (h0 : (pass planet jde E Δ0).x ≠ 0 ∨ (pass planet jde E Δ0).y ≠ 0)
    (hr : 0 < (pass planet jde E Δ0).r) :
    let p := pass planet jde E Δ0
    (2 * p.r * p.Δ + E.2.2 * E.2.2 - p.r * p.r - p.Δ * p.Δ) / (4 * p.r * p.Δ) =
      (1 - cos (InnerProductGeometry.angle (-dir p.l p.b) (-gvec p))) / 2 - (E.2.2 * sin E.2.1) ^ 2 / (4 * p.r * ‖gvec p‖) := by
  intro p
  have hΔ := pass_Δ_pos p h0
  rw [InnerProductGeometry.angle_neg_neg, InnerProductGeometry.cos_angle, gvec_norm, norm_dir, one_mul]
  have hx : p.x = p.r * cos p.b * cos p.l - E.2.2 * cos E.1 := rfl
  have hy : p.y = p.r * cos p.b * sin p.l - E.2.2 * sin E.1 := rfl
  have hz : p.z = p.r * sin p.b - E.2.2 * sin E.2.1 := rfl
  have hΔ2 : p.Δ ^ 2 = p.x * p.x + p.y * p.y + p.z * p.z := by
    unfold Pass.Δ
    rw [sq_sqrt]
    nlinarith [mul_self_nonneg p.x, mul_self_nonneg p.y, mul_self_nonneg p.z]
  unfold gvec dir
  rw [inner_vec]
  have hr' : p.r ≠ 0 := hr.ne'
  have e1 := sin_sq_add_cos_sq p.l
  have e2 := sin_sq_add_cos_sq p.b
  have e3 := sin_sq_add_cos_sq E.1
  have e4 : E.2.2 ^ 2 = (p.r * cos p.b * cos p.l - p.x) ^ 2 + (p.r * cos p.b * sin p.l - p.y) ^ 2 := by
    rw [hx, hy]; linear_combination (-E.2.2 ^ 2) * e3
  have e5 : E.2.2 * sin E.2.1 = p.r * sin p.b - p.z := by rw [hz]; ring
  have key : 2 * p.r * p.Δ + E.2.2 * E.2.2 - p.r * p.r - p.Δ * p.Δ = 2 * p.r * p.Δ -
      2 * p.r * (p.x * (cos p.b * cos p.l) + p.y * (cos p.b * sin p.l) + p.z * sin p.b) - (E.2.2 * sin E.2.1) ^ 2 := by
    rw [e5]
    linear_combination (-1) * hΔ2 + e4 + p.r ^ 2 * e2 + p.r ^ 2 * cos p.b ^ 2 * e1
  rw [key, div_sub_div _ _ two_ne_zero (by positivity), div_eq_div_iff (by positivity) (by positivity)]
  field_simp
  ring

/-- The correction of the central meridian for phase. -/
noncomputable def jupPhase (e j : Planet) (jde : ℝ) : ℝ :=
  let p := Jupiter.jupiter e j jde
  let C := (1 - cos (InnerProductGeometry.angle (-dir p.l p.b) (-gvec p))) / 2 -
    ((Jupiter.earth e jde).2.2 * sin (Jupiter.earth e jde).2.1) ^ 2 / (4 * p.r * ‖gvec p‖)
  SignType.sign (sin (p.l - (Jupiter.earth e jde).1)) * C

/-- C140.  Planetographic frame.  With A, D right ascension and declination of Jupiter's north pole, the vector from Jupiter to the Earth has latitude
DE above Jupiter's equator and longitude ζ from the equator's node.  The central meridians, in [0,2π), are the angles from there to the prime meridians
of the two systems, at the time the light left Jupiter (the constants 5.07033 and 5.02626 give it to 0.0000023° per unit of distance), moved by the
correction for phase toward the Sun. -/
theorem C140_frame (e j : Planet) (jde : ℝ)
    (h0 : (Jupiter.jupiter e j jde).x ≠ 0 ∨ (Jupiter.jupiter e j jde).y ≠ 0) (hr : 0 < (Jupiter.jupiter e j jde).r)
    (hs : sin ((Jupiter.jupiter e j jde).l - (Jupiter.earth e jde).1) ≠ 0)
    (h : (Jupiter.jupiter e j jde).x ≠ 0 ∨ (Jupiter.jupiter e j jde).y * cos (Nutation.MeanObliquity jde) -
      (Jupiter.jupiter e j jde).z * sin (Nutation.MeanObliquity jde) ≠ 0) :
    let p := Jupiter.jupiter e j jde
    let r := Jupiter.Physical e j jde
    let d := jde - 0.0057755183 * ‖gvec p‖ - 2433282.5
    ∃ ζ : ℝ, rotX (Nutation.MeanObliquity jde) (-gvec p) = ‖gvec p‖ • fromPole (Jupiter.α0 jde) (Jupiter.δ0 jde) ζ r.DE ∧ |r.DE| ≤ π / 2 ∧
      (0 ≤ r.ω1 ∧ r.ω1 < 2 * π ∧ ∃ k : ℤ,
        |r.ω1 - ((17.71 + 877.90003539 * d) * π / 180 - ζ + jupPhase e j jde + k * (2 * π))| ≤ 0.0000023 * ‖gvec p‖ * π / 180) ∧
      (0 ≤ r.ω2 ∧ r.ω2 < 2 * π ∧ ∃ k : ℤ,
        |r.ω2 - ((16.838 + 870.27003539 * d) * π / 180 - ζ + jupPhase e j jde + k * (2 * π))| ≤ 0.0000023 * ‖gvec p‖ * π / 180) := by
  intro p r d
  have hΔ := pass_Δ_pos p h0
  have he := eq_dir p (Nutation.MeanObliquity jde) h
  obtain ⟨ε, hε⟩ : ∃ ε, ε = Nutation.MeanObliquity jde := ⟨_, rfl⟩
  rw [← hε] at he ⊢
  obtain ⟨α, hα⟩ : ∃ α, α = atan2 (p.y * cos ε - p.z * sin ε) p.x := ⟨_, rfl⟩
  obtain ⟨δ, hδ⟩ : ∃ δ, δ = arctan ((p.y * sin ε + p.z * cos ε) / Angle.hypot p.x (p.y * cos ε - p.z * sin ε)) := ⟨_, rfl⟩
  rw [← hα, ← hδ] at he
  obtain ⟨ζ, hζ⟩ : ∃ ζ, ζ = atan2 (sin (Jupiter.δ0 jde) * cos δ * cos (Jupiter.α0 jde - α) - sin δ * cos (Jupiter.δ0 jde))
    (cos δ * sin (Jupiter.α0 jde - α)) := ⟨_, rfl⟩
  have hDE : r.DE = arcsin (-sin (Jupiter.δ0 jde) * sin δ - cos (Jupiter.δ0 jde) * cos δ * cos (Jupiter.α0 jde - α)) := by
    rw [hδ, hα, hε]; rfl
  obtain ⟨C, hC⟩ : ∃ C, C = (2 * p.r * p.Δ + (Jupiter.earth e jde).2.2 * (Jupiter.earth e jde).2.2 - p.r * p.r - p.Δ * p.Δ) / (4 * p.r * p.Δ) :=
    ⟨_, rfl⟩
  have hph : (if sin (p.l - (Jupiter.earth e jde).1) < 0 then -C else C) = jupPhase e j jde := by
    have hp := phase_term j jde (pass j jde (Jupiter.earth e jde) 4).Δ (Jupiter.earth e jde) h0 hr
    unfold jupPhase
    dsimp only
    rw [hC]
    rcases lt_or_gt_of_ne hs with hn | hn
    · rw [if_pos hn, sign_neg hn]
      simp only [SignType.coe_neg, SignType.coe_one, neg_mul, one_mul]
      exact congrArg Neg.neg hp
    · rw [if_neg hn.not_gt, sign_pos hn]
      simp only [SignType.coe_one, one_mul]
      exact hp
  have hω1 : r.ω1 = mod1 (17.71 * deg + 877.90003539 * deg * (jde - 2433282.5) - ζ - 5.07033 * deg * p.Δ + jupPhase e j jde) := by
    rw [← hph, hC, hζ, hδ, hα, hε]; rfl
  have hω2 : r.ω2 = mod1 (16.838 * deg + 870.27003539 * deg * (jde - 2433282.5) - ζ - 5.02626 * deg * p.Δ + jupPhase e j jde) := by
    rw [← hph, hC, hζ, hδ, hα, hε]; rfl
  obtain ⟨u1, u2, k, hk⟩ := mod1_eq (17.71 * deg + 877.90003539 * deg * (jde - 2433282.5) - ζ - 5.07033 * deg * p.Δ + jupPhase e j jde)
  obtain ⟨v1, v2, k', hk'⟩ := mod1_eq (16.838 * deg + 870.27003539 * deg * (jde - 2433282.5) - ζ - 5.02626 * deg * p.Δ + jupPhase e j jde)
  rw [← hω1] at u1 u2 hk
  rw [← hω2] at v1 v2 hk'
  have hpi := mul_pos hΔ pi_pos
  refine ⟨ζ, ?_, ?_, ⟨u1, u2, -k, ?_⟩, ⟨v1, v2, -k', ?_⟩⟩
  · have e1 : rotX ε (-gvec p) = -rotX ε (gvec p) := by
      unfold gvec; rw [neg_vec, rotX_vec, rotX_vec, neg_vec]; apply vec_eq <;> ring
    rw [e1, he, gvec_norm, ← smul_neg, hDE, hζ]
    congr 1
    exact neg_dir_fromPole _ _ _ _
  · rw [hDE, abs_le]; exact ⟨neg_pi_div_two_le_arcsin _, arcsin_le_pi_div_two _⟩
  · have e : r.ω1 - ((17.71 + 877.90003539 * d) * π / 180 - ζ + jupPhase e j jde + (-k : ℤ) * (2 * π)) =
        (877.90003539 * 0.0057755183 - 5.07033) * p.Δ * π / 180 := by
      show r.ω1 - ((17.71 + 877.90003539 * (jde - 0.0057755183 * ‖gvec p‖ - 2433282.5)) * π / 180 - ζ + jupPhase e j jde + (-k : ℤ) * (2 * π)) = _
      rw [gvec_norm]
      unfold deg at hk
      push_cast
      linear_combination -hk
    rw [e, gvec_norm, abs_le]
    constructor <;> nlinarith
  · have e : r.ω2 - ((16.838 + 870.27003539 * d) * π / 180 - ζ + jupPhase e j jde + (-k' : ℤ) * (2 * π)) =
        (870.27003539 * 0.0057755183 - 5.02626) * p.Δ * π / 180 := by
      show r.ω2 - ((16.838 + 870.27003539 * (jde - 0.0057755183 * ‖gvec p‖ - 2433282.5)) * π / 180 - ζ + jupPhase e j jde + (-k' : ℤ) * (2 * π)) = _
      rw [gvec_norm]
      unfold deg at hk'
      push_cast
      linear_combination -hk'
    rw [e, gvec_norm, abs_le]
    constructor <;> nlinarith

/-- C140.  DS is the latitude of the Sun above Jupiter's equator. -/
theorem C140_sun (e j : Planet) (jde : ℝ) (hb : 0 < cos (Jupiter.jupiter e j jde).b) :
    let p := Jupiter.jupiter e j jde
    let r := Jupiter.Physical e j jde
    |r.DS| ≤ π / 2 ∧ sin r.DS = inner ℝ (dir (Jupiter.α0 jde) (Jupiter.δ0 jde)) (rotX (Nutation.MeanObliquity jde) (-dir p.l p.b)) := by
  intro p r
  obtain ⟨ε, hε⟩ : ∃ ε, ε = Nutation.MeanObliquity jde := ⟨_, rfl⟩
  obtain ⟨αs, hαs⟩ : ∃ αs, αs = atan2 (cos ε * sin p.l - sin ε * sin p.b / cos p.b) (cos p.l) := ⟨_, rfl⟩
  obtain ⟨δs, hδs⟩ : ∃ δs, δs = arcsin (cos ε * sin p.b + sin ε * cos p.b * sin p.l) := ⟨_, rfl⟩
  have hd : dir αs δs = rotX ε (dir p.l p.b) := by
    have h := dir_scaled (x := cos p.b * cos p.l) (y := cos ε * (cos p.b * sin p.l) - sin ε * sin p.b)
      (z := cos ε * sin p.b + sin ε * cos p.b * sin p.l) hb (by
        have e1 := sin_sq_add_cos_sq p.l
        have e2 := sin_sq_add_cos_sq p.b
        have e3 := sin_sq_add_cos_sq ε
        linear_combination (cos p.b ^ 2 * sin p.l ^ 2 + sin p.b ^ 2) * e3 + cos p.b ^ 2 * e1 + e2)
    have e1 : (cos ε * (cos p.b * sin p.l) - sin ε * sin p.b) / cos p.b = cos ε * sin p.l - sin ε * sin p.b / cos p.b := by
      have : cos p.b ≠ 0 := hb.ne'
      field_simp
    have e2 : cos p.b * cos p.l / cos p.b = cos p.l := by
      have : cos p.b ≠ 0 := hb.ne'
      field_simp
    have hc : (Jupiter.jupiter e j jde).b = p.b := rfl
    rw [hc, e1, e2, ← hαs, ← hδs] at h
    rw [h]
    unfold dir
    rw [rotX_vec]
    apply vec_eq <;> ring
  have hDS : r.DS = arcsin (-sin (Jupiter.δ0 jde) * sin δs - cos (Jupiter.δ0 jde) * cos δs * cos (Jupiter.α0 jde - αs)) := by
    rw [hδs, hαs, hε]; rfl
  rw [sin_of_inner] at hDS
  have hn := abs_le.1 (abs_real_inner_le_norm (dir (Jupiter.α0 jde) (Jupiter.δ0 jde)) (dir αs δs))
  rw [norm_dir, norm_dir, mul_one] at hn
  constructor
  · rw [hDS, abs_le]; exact ⟨neg_pi_div_two_le_arcsin _, arcsin_le_pi_div_two _⟩
  · rw [hDS, sin_arcsin (by linarith [hn.2]) (by linarith [hn.1]), hd, ← hε]
    have : rotX ε (-dir p.l p.b) = -rotX ε (dir p.l p.b) := by
      unfold dir; rw [neg_vec, rotX_vec, rotX_vec, neg_vec]; apply vec_eq <;> ring
    rw [this, inner_neg_right]

/-- The rotation by which nutation moves the stars, in equatorial coordinates: about the pole of the ecliptic by Δψ, about the equinox by Δε. -/
noncomputable def nutAxis (ε Δψ Δε : ℝ) : V3 := !₂[Δε, -sin ε * Δψ, cos ε * Δψ]

theorem nutation_shift (α δ ε Δψ Δε : ℝ) (hc : cos δ ≠ 0) :
    shift α δ ((cos ε + sin ε * sin α * (sin δ / cos δ)) * Δψ - cos α * (sin δ / cos δ) * Δε) (sin ε * cos α * Δψ + sin α * Δε) =
      cross (nutAxis ε Δψ Δε) (dir α δ) := by
  have e : cos δ * ((cos ε + sin ε * sin α * (sin δ / cos δ)) * Δψ - cos α * (sin δ / cos δ) * Δε) =
      (cos δ * cos ε + sin ε * sin α * sin δ) * Δψ - cos α * sin δ * Δε := by field_simp
  rw [shift_vec, e]
  unfold nutAxis dir
  rw [cross_vec]
  have e1 := sin_sq_add_cos_sq α
  apply vec_eq
  · linear_combination (-(sin ε * sin δ * Δψ)) * e1
  · linear_combination (-(sin δ * Δε)) * e1
  · ring

theorem aberration_shift (α δ l0 ε k : ℝ) (hc : cos δ ≠ 0) (hε : cos ε ≠ 0) :
    shift α δ (k * (cos α * cos l0 * cos ε + sin α * sin l0) / cos δ)
      (k * (cos l0 * cos ε * (sin ε / cos ε * cos δ - sin α * sin δ) + cos α * sin δ * sin l0)) =
      k • perp (dir α δ) (rotX ε (dir (l0 + π / 2) 0)) := by
  have e : cos δ * (k * (cos α * cos l0 * cos ε + sin α * sin l0) / cos δ) = k * (cos α * cos l0 * cos ε + sin α * sin l0) := by field_simp
  have e' : k * (cos l0 * cos ε * (sin ε / cos ε * cos δ - sin α * sin δ) + cos α * sin δ * sin l0) =
      k * (cos l0 * (sin ε * cos δ - cos ε * sin α * sin δ) + cos α * sin δ * sin l0) := by field_simp
  rw [shift_vec, e, e']
  unfold dir
  rw [rotX_vec, perp_vec, cos_add_pi_div_two, sin_add_pi_div_two, cos_zero, sin_zero, smul_vec]
  have e1 := sin_sq_add_cos_sq α
  have e2 := sin_sq_add_cos_sq δ
  have e3 := sin_sq_add_cos_sq l0
  generalize sin α = sa at *; generalize cos α = ca at *
  generalize sin δ = sd at *; generalize cos δ = cd at *
  generalize sin l0 = sl at *; generalize cos l0 = cl at *
  generalize sin ε = se at *; generalize cos ε = ce at *
  clear e e' hc hε
  apply vec_eq <;> grind

/-- C140.  P, in [0,2π), is the position angle of Jupiter's north pole seen at the apparent place of Jupiter.  The apparent place is the geometric one,
(α, δ), displaced toward the Earth's motion by 0.005693° times its sine distance, and by nutation; the pole is displaced by nutation. -/
theorem C140_position_angle (e j : Planet) (jde : ℝ) (h0 : cos (Jupiter.δ0 jde) ≠ 0)
    (hε : cos (Nutation.MeanObliquity jde + (Nutation.Nutation jde).2) ≠ 0)
    (h : (Jupiter.jupiter e j jde).x ≠ 0 ∨ (Jupiter.jupiter e j jde).y * cos (Nutation.MeanObliquity jde) -
      (Jupiter.jupiter e j jde).z * sin (Nutation.MeanObliquity jde) ≠ 0) :
    let p := Jupiter.jupiter e j jde
    let P := (Jupiter.Physical e j jde).P
    let ε := Nutation.MeanObliquity jde + (Nutation.Nutation jde).2
    let w := nutAxis ε (Nutation.Nutation jde).1 (Nutation.Nutation jde).2
    0 ≤ P ∧ P < 2 * π ∧
    ∃ α δ a1 d1 a2 d2 a3 d3 : ℝ,
      rotX (Nutation.MeanObliquity jde) (gvec p) = ‖gvec p‖ • dir α δ ∧
      shift α δ a1 d1 = (0.005693 * π / 180) • perp (dir α δ) (rotX ε (dir ((Jupiter.earth e jde).1 + π / 2) 0)) ∧
      shift α δ a2 d2 = cross w (dir α δ) ∧
      shift (Jupiter.α0 jde) (Jupiter.δ0 jde) a3 d3 = cross w (dir (Jupiter.α0 jde) (Jupiter.δ0 jde)) ∧
      let n := dir (Jupiter.α0 jde + a3) (Jupiter.δ0 jde + d3)
      let s := dir (α + a1 + a2) (δ + d1 + d2)
      perp s n = ‖perp s n‖ • (sin P • east (α + a1 + a2) + cos P • north (α + a1 + a2) (δ + d1 + d2)) := by
  intro p P ε w
  have he := eq_dir p (Nutation.MeanObliquity jde) h
  obtain ⟨α, hα⟩ : ∃ α, α = atan2 (p.y * cos (Nutation.MeanObliquity jde) - p.z * sin (Nutation.MeanObliquity jde)) p.x := ⟨_, rfl⟩
  obtain ⟨δ, hδ⟩ : ∃ δ, δ = arctan ((p.y * sin (Nutation.MeanObliquity jde) + p.z * cos (Nutation.MeanObliquity jde)) /
    Angle.hypot p.x (p.y * cos (Nutation.MeanObliquity jde) - p.z * sin (Nutation.MeanObliquity jde))) := ⟨_, rfl⟩
  rw [← hα, ← hδ] at he
  have hc : cos δ ≠ 0 := by rw [hδ]; exact (cos_arctan_pos _).ne'
  have s1 := aberration_shift α δ (Jupiter.earth e jde).1 ε (0.005693 * π / 180) hc hε
  have s2 := nutation_shift α δ ε (Nutation.Nutation jde).1 (Nutation.Nutation jde).2 hc
  have s3 := nutation_shift (Jupiter.α0 jde) (Jupiter.δ0 jde) ε (Nutation.Nutation jde).1 (Nutation.Nutation jde).2 h0
  have hk : (0.005693 * π / 180 : ℝ) = 0.005693 * deg := by unfold deg; ring
  obtain ⟨a1, ha1⟩ : ∃ a1, a1 = 0.005693 * π / 180 * (cos α * cos (Jupiter.earth e jde).1 * cos ε + sin α * sin (Jupiter.earth e jde).1) / cos δ :=
    ⟨_, rfl⟩
  obtain ⟨d1, hd1⟩ : ∃ d1, d1 = 0.005693 * π / 180 * (cos (Jupiter.earth e jde).1 * cos ε * (sin ε / cos ε * cos δ - sin α * sin δ) +
    cos α * sin δ * sin (Jupiter.earth e jde).1) := ⟨_, rfl⟩
  obtain ⟨a2, ha2⟩ : ∃ a2, a2 = (cos ε + sin ε * sin α * (sin δ / cos δ)) * (Nutation.Nutation jde).1 -
    cos α * (sin δ / cos δ) * (Nutation.Nutation jde).2 := ⟨_, rfl⟩
  obtain ⟨d2, hd2⟩ : ∃ d2, d2 = sin ε * cos α * (Nutation.Nutation jde).1 + sin α * (Nutation.Nutation jde).2 := ⟨_, rfl⟩
  obtain ⟨a3, ha3⟩ : ∃ a3, a3 = (cos ε + sin ε * sin (Jupiter.α0 jde) * (sin (Jupiter.δ0 jde) / cos (Jupiter.δ0 jde))) * (Nutation.Nutation jde).1 -
    cos (Jupiter.α0 jde) * (sin (Jupiter.δ0 jde) / cos (Jupiter.δ0 jde)) * (Nutation.Nutation jde).2 := ⟨_, rfl⟩
  obtain ⟨d3, hd3⟩ : ∃ d3, d3 = sin ε * cos (Jupiter.α0 jde) * (Nutation.Nutation jde).1 + sin (Jupiter.α0 jde) * (Nutation.Nutation jde).2 :=
    ⟨_, rfl⟩
  rw [← ha1, ← hd1] at s1
  rw [← ha2, ← hd2] at s2
  rw [← ha3, ← hd3] at s3
  have hP : P = Limb (α + a1 + a2) (δ + d1 + d2) (Jupiter.α0 jde + a3) (Jupiter.δ0 jde + d3) := by
    rw [ha1, hd1, ha2, hd2, ha3, hd3, hδ, hα, hk]; rfl
  obtain ⟨⟨l1, l2⟩, l3⟩ := C96_limb (α + a1 + a2) (δ + d1 + d2) (Jupiter.α0 jde + a3) (Jupiter.δ0 jde + d3)
  rw [← hP] at l1 l2 l3
  exact ⟨l1, l2, α, δ, a1, d1, a2, d2, a3, d3, by rw [gvec_norm]; exact he, s1, s2, s3, l3⟩

/-- The conditions on the obliquity and the pole hold for twenty centuries either side of 2000. -/
theorem jupiter_dates (jde : ℝ) (hT : |J2000Century jde| ≤ 20) :
    cos (Jupiter.δ0 jde) ≠ 0 ∧ cos (Nutation.MeanObliquity jde + (Nutation.Nutation jde).2) ≠ 0 := by
  obtain ⟨a, b⟩ := abs_le.1 hT
  have hpi := pi_pos
  constructor
  · apply ne_of_gt
    apply cos_pos_of_mem_Ioo
    unfold Jupiter.δ0 deg
    unfold J2000Century at a b
    have h1 : (jde - 2433282.5) / 36525 ≤ 21 := by linarith
    have h2 : -20 ≤ (jde - 2433282.5) / 36525 := by linarith
    generalize (jde - 2433282.5) / 36525 = t at *
    constructor <;> nlinarith
  · obtain ⟨r1, r2⟩ := C116_range jde hT
    have hs := nsec_pos
    have hn := (C116_bounds jde).2
    have hn' : |(Nutation.Nutation jde).2| ≤ 11 * Nutation.sec :=
      hn.trans (mul_le_mul_of_nonneg_right (by linarith) hs.le)
    obtain ⟨n1, n2⟩ := abs_le.1 hn'
    have hv : π = 648000 * Nutation.sec := by unfold Nutation.sec; ring
    apply ne_of_gt
    apply cos_pos_of_mem_Ioo
    rw [hv]
    constructor <;> linarith

/-- A planet standing at a longitude on the ecliptic. -/
noncomputable def stillAt (L r : ℝ) : Planet := fun _ => (L + 0.09033 * Nutation.sec, 0, r)

theorem stillAt_fk5 (L r : ℝ) : ∃ b, |b| ≤ 0.0000004 ∧ ∀ t, fk5At (stillAt L r) t 2451545 = (L, b, r) := by
  refine ⟨_, tiny_fk5 (L + 0.09033 * Nutation.sec), fun t => ?_⟩
  unfold fk5At stillAt PlanetPos.ToFK5
  dsimp only
  rw [cent0, tan_zero]
  simp only [mul_zero, add_zero, zero_mul, zero_div, sub_zero, zero_add]
  refine Prod.ext ?_ rfl
  dsimp only
  ring

/-- Jupiter in quadrature at distance 5 meets the hypotheses of the theorems of C140. -/
theorem jupiter_example :
    let p := Jupiter.jupiter (stillAt 0 1) (stillAt (π / 2) 5) 2451545
    p.x ≠ 0 ∧ 0 < p.r ∧ sin (p.l - (Jupiter.earth (stillAt 0 1) 2451545).1) ≠ 0 ∧ 0 < cos p.b := by
  intro p
  obtain ⟨b0, hb0, h0⟩ := stillAt_fk5 0 1
  obtain ⟨b, hb, h1⟩ := stillAt_fk5 (π / 2) 5
  have hp : p = ⟨π / 2, b, 5, 5 * cos b * cos (π / 2) - 1 * cos 0, 5 * cos b * sin (π / 2) - 1 * sin 0, 5 * sin b - 1 * sin b0⟩ := by
    show Jupiter.jupiter _ _ _ = _
    unfold Jupiter.jupiter passes pass Jupiter.earth
    dsimp only
    rw [h1, h0]
  have he : (Jupiter.earth (stillAt 0 1) 2451545).1 = 0 := by unfold Jupiter.earth; rw [h0]
  refine ⟨?_, ?_, ?_, ?_⟩
  · rw [hp]; simp
  · rw [hp]; norm_num
  · rw [he, hp]; simp
  · rw [hp]
    have := pi_gt_three
    obtain ⟨b1, b2⟩ := abs_le.1 hb
    apply cos_pos_of_mem_Ioo
    constructor <;> dsimp only <;> linarith

end Verif.Props
