import Verif.Model.Parallactic
import Verif.Spec.Tangent
import Verif.Lemmas.Rotation
import Verif.Lemmas.Tangent
import Verif.Props.Rise
import Mathlib.Tactic
/-
C102 – C104: parallactic angle, ecliptic and horizon, diurnal path.
Right ascensions are measured on the sphere of `Spec.dir`; the zenith is `dir θ φ` with θ the sidereal time.
-/
namespace Verif.Props

open Real Verif.Go Verif.Spec Verif.Lemmas Verif.Model.Parallactic

theorem unit_ratio {a b c : ℝ} (h : a ^ 2 + b ^ 2 + c ^ 2 = 1) : sqrt (a ^ 2 + b ^ 2) = sqrt (1 - c ^ 2) := by
  congr 1; linarith

/-- `atan2` of two components scaled by a positive number. -/
theorem atan2_scaled {x y c ρ : ℝ} (hc : 0 < c) (hρ : ρ = sqrt (x ^ 2 + y ^ 2)) :
    ρ * cos (atan2 (y / c) (x / c)) = x ∧ ρ * sin (atan2 (y / c) (x / c)) = y := by
  obtain ⟨p1, p2⟩ := atan2_polar (y / c) (x / c)
  have hs : sqrt ((x / c) ^ 2 + (y / c) ^ 2) = ρ / c := by
    rw [hρ, show (x / c) ^ 2 + (y / c) ^ 2 = (x ^ 2 + y ^ 2) / c ^ 2 by field_simp, sqrt_div' _ (sq_nonneg c), sqrt_sq hc.le]
  rw [hs] at p1 p2
  constructor
  · field_simp at p1; linarith
  · field_simp at p2; linarith

/-- C102: the parallactic angle is the position angle of the zenith at the body, from north through east: the components of
the zenith's direction along north and east are cos(altitude) times its cosine and sine. -/
theorem C102_parallactic (φ α δ θ : ℝ) (hφ : |φ| < π / 2) :
    inner ℝ (dir θ φ) (north α δ) = cos (altitude φ δ (θ - α)) * cos (ParallacticAngle φ δ (θ - α)) ∧
    inner ℝ (dir θ φ) (east α) = cos (altitude φ δ (θ - α)) * sin (ParallacticAngle φ δ (θ - α)) ∧
    ParallacticAngle φ δ (θ - α) ∈ Set.Ioc (-π) π := by
  have c1 : 0 < cos φ := cos_pos_of_mem_Ioo (abs_lt.1 hφ)
  set H := θ - α with hH
  have e1 := sin_sq_add_cos_sq φ
  have e2 := sin_sq_add_cos_sq δ
  have e3 := sin_sq_add_cos_sq H
  have hq : ParallacticAngle φ δ H = atan2 (cos φ * sin H / cos φ) ((sin φ * cos δ - cos φ * sin δ * cos H) / cos φ) := by
    unfold ParallacticAngle
    rw [tan_eq_sin_div_cos]
    congr 1 <;> field_simp
  have hn : inner ℝ (dir θ φ) (north α δ) = sin φ * cos δ - cos φ * sin δ * cos H := by
    unfold dir north; rw [inner_vec, hH, cos_sub]; ring
  have he : inner ℝ (dir θ φ) (east α) = cos φ * sin H := by
    unfold dir east; rw [inner_vec, hH, sin_sub]; ring
  have hρ : cos (altitude φ δ H) = sqrt ((sin φ * cos δ - cos φ * sin δ * cos H) ^ 2 + (cos φ * sin H) ^ 2) := by
    unfold altitude
    rw [cos_arcsin]
    congr 1
    clear_value H
    generalize sin H = sH, cos H = cH, sin φ = sφ, cos φ = cφ, sin δ = sδ, cos δ = cδ at *
    clear * - e1 e2 e3
    grind
  obtain ⟨a, b⟩ := atan2_scaled c1 hρ
  rw [hn, he, hq]
  exact ⟨a.symm, b.symm, atan2_range _ _⟩

/-- C102: on the horizon the special case returns the magnitude of the parallactic angle; the angle itself is
positive for a setting and negative for a rising body. -/
theorem C102_horizon (φ δ H : ℝ) (hφ : |φ| < π / 2) (hδ : |δ| < π / 2) (h : altitude φ δ H = 0) :
    ParallacticAngleOnHorizon φ δ = .fin |ParallacticAngle φ δ H| ∧
    (0 < sin H → 0 < ParallacticAngle φ δ H) ∧ (sin H < 0 → ParallacticAngle φ δ H < 0) := by
  obtain ⟨h1, h2, h3⟩ := C102_parallactic φ 0 δ H hφ
  rw [sub_zero, h, cos_zero, one_mul] at h1 h2
  rw [sub_zero] at h3
  have c1 : 0 < cos φ := cos_pos_of_mem_Ioo (abs_lt.1 hφ)
  have c2 : 0 < cos δ := cos_pos_of_mem_Ioo (abs_lt.1 hδ)
  have e2 := sin_sq_add_cos_sq δ
  rw [cH0_attained hφ hδ (by simp; positivity), sin_zero, zero_sub, eq_div_iff (mul_pos c1 c2).ne'] at h
  unfold dir north at h1
  unfold dir east at h2
  rw [inner_vec] at h1 h2
  simp only [cos_zero, sin_zero, mul_zero, mul_one, add_zero, neg_zero, zero_add] at h1 h2
  have hc : cos (ParallacticAngle φ δ H) = sin φ / cos δ := by
    rw [← h1, eq_div_iff c2.ne']
    linear_combination (-sin δ) * h + sin φ * e2
  refine ⟨?_, ?_, ?_⟩
  · unfold ParallacticAngleOnHorizon
    rw [EF.fin_div_ne c2.ne', ← hc]
    rw [EF.acos, if_neg (not_or.2 ⟨not_lt.2 (neg_one_le_cos _), not_lt.2 (cos_le_one _)⟩)]
    congr 1
    rw [← cos_abs, arccos_cos (abs_nonneg _) (abs_le.2 ⟨h3.1.le, h3.2⟩)]
  · intro hs
    by_contra hneg
    have := sin_nonpos_of_nonpos_of_neg_pi_le (not_lt.1 hneg) h3.1.le
    nlinarith
  · intro hs
    by_contra hneg
    have := sin_nonneg_of_nonneg_of_le_pi (not_lt.1 hneg) h3.2
    nlinarith

/-- C102: the special case gives NaN exactly when the body never reaches the horizon. -/
theorem C102_horizon_nan (φ δ : ℝ) (hφ : |φ| < π / 2) (hδ : |δ| < π / 2) :
    ParallacticAngleOnHorizon φ δ = .nan ↔ ∀ H, altitude φ δ H ≠ 0 := by
  have c1 : 0 < cos φ := cos_pos_of_mem_Ioo (abs_lt.1 hφ)
  have c2 : 0 < cos δ := cos_pos_of_mem_Ioo (abs_lt.1 hδ)
  have e1 := sin_sq_add_cos_sq φ
  have e2 := sin_sq_add_cos_sq δ
  constructor
  · intro hn H hH
    rw [(C102_horizon φ δ H hφ hδ hH).1] at hn
    cases hn
  · intro hno
    by_contra hn
    have hb : ¬ (sin φ / cos δ < -1 ∨ 1 < sin φ / cos δ) := by
      intro hb
      apply hn
      unfold ParallacticAngleOnHorizon
      rw [EF.fin_div_ne c2.ne']
      rw [EF.acos, if_pos hb]
    push Not at hb
    obtain ⟨b1, b2⟩ := hb
    rw [le_div_iff₀ c2] at b1
    rw [div_le_iff₀ c2] at b2
    have hsq : sin φ ^ 2 ≤ cos δ ^ 2 := by nlinarith
    have hx : (-(sin φ * sin δ) / (cos φ * cos δ)) ^ 2 ≤ 1 := by
      rw [div_pow, div_le_one (by positivity)]
      nlinarith [sq_nonneg (sin φ), sq_nonneg (sin δ), sq_nonneg (cos δ)]
    have hx' := abs_le.1 ((sq_le_one_iff_abs_le_one _).1 hx)
    refine hno (arccos (-(sin φ * sin δ) / (cos φ * cos δ))) ?_
    rw [cH0_attained hφ hδ (by simp; positivity), cos_arccos hx'.1 hx'.2, sin_zero, zero_sub]

/-- The point of the ecliptic with longitude l, in equatorial coordinates. -/
noncomputable def eclipticPoint (ε l : ℝ) : V3 := rotX ε (dir l 0)

/-- The north pole of the ecliptic. -/
noncomputable def eclipticPole (ε : ℝ) : V3 := rotX ε (dir 0 (π / 2))

theorem eclipticPoint_vec (ε l : ℝ) : eclipticPoint ε l = !₂[cos l, cos ε * sin l, sin ε * sin l] := by
  unfold eclipticPoint dir; rw [rotX_vec]; simp

theorem eclipticPole_vec (ε : ℝ) : eclipticPole ε = !₂[0, -sin ε, cos ε] := by
  unfold eclipticPole dir; rw [rotX_vec]; simp

/-- C103: both longitudes are on the horizon, opposite each other, and every point of the ecliptic on the horizon is one of
them unless the whole ecliptic lies on the horizon; the angle is the angle between the zenith and the pole of the ecliptic. -/
theorem C103_ecliptic_horizon (ε φ θ : ℝ) (hφ : |φ| < π / 2) :
    let (l1, l2, I) := EclipticAtHorizon ε φ θ
    inner ℝ (dir θ φ) (eclipticPoint ε l1) = 0 ∧ inner ℝ (dir θ φ) (eclipticPoint ε l2) = 0 ∧
    l1 ∈ Set.Icc 0 π ∧ l2 = l1 + π ∧ I = InnerProductGeometry.angle (dir θ φ) (eclipticPole ε) ∧
    ∀ l, inner ℝ (dir θ φ) (eclipticPoint ε l) = 0 → sin I ≠ 0 → ∃ k : ℤ, l = l1 + k * π := by
  have c1 : 0 < cos φ := cos_pos_of_mem_Ioo (abs_lt.1 hφ)
  unfold EclipticAtHorizon
  dsimp only
  set u := sin ε * (sin φ / cos φ) + cos ε * sin θ with hu
  set a := atan2 (-cos θ) u with ha
  obtain ⟨p1, p2⟩ := atan2_polar (-cos θ) u
  obtain ⟨r1, r2⟩ := atan2_range (-cos θ) u
  rw [← ha] at p1 p2 r1 r2
  set ρ := sqrt (u ^ 2 + (-cos θ) ^ 2) with hρ
  have key : ∀ l, inner ℝ (dir θ φ) (eclipticPoint ε l) = cos φ * ρ * sin (l - a) := by
    intro l
    rw [eclipticPoint_vec]
    unfold dir
    rw [inner_vec, sin_sub, show cos φ * ρ * (sin l * cos a - cos l * sin a) = cos φ * (sin l * (ρ * cos a) - cos l * (ρ * sin a)) by ring,
      p1, p2, hu]
    field_simp
    ring
  have hI : arccos (cos ε * sin φ - sin ε * cos φ * sin θ) = InnerProductGeometry.angle (dir θ φ) (eclipticPole ε) := by
    unfold InnerProductGeometry.angle
    have hn : ‖eclipticPole ε‖ = 1 := by
      have h2 : ‖eclipticPole ε‖ ^ 2 = 1 := by
        rw [← real_inner_self_eq_norm_sq, eclipticPole_vec, inner_vec]; nlinarith [sin_sq_add_cos_sq ε]
      nlinarith [norm_nonneg (eclipticPole ε)]
    rw [hn, norm_dir, eclipticPole_vec]
    congr 1
    unfold dir
    rw [inner_vec]; ring
  set l1 := if a < 0 then a + π else a with hl1
  have hk : ∃ j : ℤ, l1 = a + j * π := by
    by_cases h : a < 0
    · exact ⟨1, by rw [hl1, if_pos h]; push_cast; ring⟩
    · exact ⟨0, by rw [hl1, if_neg h]; push_cast; ring⟩
  obtain ⟨j, hj⟩ := hk
  have s1 : sin (l1 - a) = 0 := by rw [hj, show a + j * π - a = j * π by ring, sin_int_mul_pi]
  refine ⟨by rw [key, s1, mul_zero], by rw [key, show l1 + π - a = (l1 - a) + π by ring, sin_add_pi, s1]; simp, ?_, rfl, hI, ?_⟩
  · by_cases h : a < 0
    · rw [hl1, if_pos h]; constructor <;> linarith
    · rw [hl1, if_neg h]; exact ⟨not_lt.1 h, r2⟩
  · intro l hl hs
    rw [key] at hl
    have hρ0 : ρ ≠ 0 := by
      intro h0
      rw [h0, zero_mul] at p1 p2
      apply hs
      rw [sin_arccos, show 1 - (cos ε * sin φ - sin ε * cos φ * sin θ) ^ 2 = 0 from ?_, sqrt_zero]
      have q1 : sin ε * sin φ + cos ε * cos φ * sin θ = 0 := by
        have : cos φ * u = 0 := by rw [← p1, mul_zero]
        rw [hu] at this
        field_simp at this
        linarith
      have q2 : cos θ = 0 := by linarith
      have e1 := sin_sq_add_cos_sq φ
      have e2 := sin_sq_add_cos_sq ε
      have e3 := sin_sq_add_cos_sq θ
      clear * - q1 q2 e1 e2 e3
      generalize sin θ = sθ, cos θ = cθ, sin φ = sφ, cos φ = cφ, sin ε = sδ, cos ε = cδ at *
      grind
    have hsin : sin (l - a) = 0 := by
      rcases mul_eq_zero.1 hl with h | h
      · exact absurd h (mul_ne_zero c1.ne' hρ0)
      · exact h
    obtain ⟨n, hn⟩ := sin_eq_zero_iff.1 hsin
    exact ⟨n - j, by push_cast; rw [hj]; linarith⟩

/-- C103: at the equinox point rising or setting: for latitude 0 at sidereal time 6h the ecliptic's points at longitude 0 and
180° are on the horizon, a case meeting the hypotheses with `sin I ≠ 0`. -/
example : (EclipticAtHorizon (π / 6) 0 (π / 2)).1 = 0 ∧ (EclipticAtHorizon (π / 6) 0 (π / 2)).2.2 = 2 * π / 3 := by
  unfold EclipticAtHorizon
  have h : atan2 (-cos (π / 2)) (sin (π / 6) * (sin 0 / cos 0) + cos (π / 6) * sin (π / 2)) = 0 := by
    unfold atan2
    rw [Complex.arg_eq_zero_iff]
    simp [cos_pi_div_six]
    positivity
  dsimp only
  rw [h]
  constructor
  · simp
  · rw [sin_zero, cos_zero, sin_pi_div_two, sin_pi_div_six, show cos (π / 6) * 0 - 1 / 2 * 1 * 1 = -(1 / 2 : ℝ) by ring, arccos_neg,
      show (1 / 2 : ℝ) = cos (π / 3) by rw [cos_pi_div_three], arccos_cos (by positivity) (by linarith [pi_pos])]
    ring

/-- C103: the angle of the ecliptic with the parallel of declination: at a point of the ecliptic the tangent of the
ecliptic (the direction of increasing longitude) has components cos and −sin of the returned angle along east and north. -/
theorem C103_ecliptic_equator (ε l α δ : ℝ) (hε : |ε| < π / 2) (hδ : |δ| < π / 2) (hp : dir α δ = eclipticPoint ε l) :
    inner ℝ (eclipticPoint ε (l + π / 2)) (east α) = cos (EclipticAtEquator l ε) ∧
    inner ℝ (eclipticPoint ε (l + π / 2)) (north α δ) = -sin (EclipticAtEquator l ε) := by
  have c1 : 0 < cos ε := cos_pos_of_mem_Ioo (abs_lt.1 hε)
  have c2 : 0 < cos δ := cos_pos_of_mem_Ioo (abs_lt.1 hδ)
  rw [eclipticPoint_vec] at hp
  unfold dir at hp
  obtain ⟨h1, h2, h3⟩ := vec_inj hp
  rw [eclipticPoint_vec, sin_add_pi_div_two, cos_add_pi_div_two]
  unfold east north EclipticAtEquator
  rw [inner_vec, inner_vec, cos_arctan, sin_arctan]
  have e1 := sin_sq_add_cos_sq ε
  have e2 := sin_sq_add_cos_sq δ
  have e3 := sin_sq_add_cos_sq l
  have e4 := sin_sq_add_cos_sq α
  have hs : sqrt (1 + (-cos l * tan ε) ^ 2) = cos δ / cos ε := by
    rw [show 1 + (-cos l * tan ε) ^ 2 = (cos δ / cos ε) ^ 2 from ?_, sqrt_sq (by positivity)]
    rw [tan_eq_sin_div_cos]
    field_simp
    clear hp
    generalize sin l = sl, cos l = cl, sin ε = sε, cos ε = cε, sin δ = sδ, cos δ = cδ, sin α = sα, cos α = cα at *
    clear * - e1 e2 e3 h3
    grind
  rw [hs, tan_eq_sin_div_cos]
  clear hs hp
  generalize sin l = sl, cos l = cl, sin ε = sε, cos ε = cε, sin δ = sδ, cos δ = cδ, sin α = sα, cos α = cα at *
  constructor
  · field_simp
    clear * - e1 e2 e3 e4 h1 h2 h3
    grind
  · field_simp
    clear * - e1 e2 e3 e4 h1 h2 h3 c2
    grind

/-- C104: at the moment of rising or setting the body's velocity (its hour angle growing) makes with the vertical the
complement of the returned angle's magnitude; the angle is NaN exactly for bodies that never reach the horizon. -/
theorem C104_diurnal (δ φ H : ℝ) (hφ : |φ| < π / 2) (hδ : |δ| < π / 2) (h : altitude φ δ H = 0) :
    ∃ J, DiurnalPathAtHorizon δ φ = .fin J ∧
      |inner ℝ (dir 0 φ) (shift H δ 1 0)| = ‖shift H δ 1 0‖ * sin |J| ∧ |J| ≤ π / 2 := by
  have c1 : 0 < cos φ := cos_pos_of_mem_Ioo (abs_lt.1 hφ)
  have c2 : 0 < cos δ := cos_pos_of_mem_Ioo (abs_lt.1 hδ)
  rw [cH0_attained hφ hδ (by simp; positivity), sin_zero, zero_sub] at h
  have e1 := sin_sq_add_cos_sq φ
  have e2 := sin_sq_add_cos_sq δ
  have e3 := sin_sq_add_cos_sq H
  have hb : cos H = -(tan δ * tan φ) := by
    rw [h, tan_eq_sin_div_cos, tan_eq_sin_div_cos]; field_simp
  have hc : 1 - tan δ * tan φ * (tan δ * tan φ) = sin H ^ 2 := by
    rw [hb] at e3; linear_combination -e3
  have hn : ‖shift H δ 1 0‖ = cos δ := by
    have h2 : ‖shift H δ 1 0‖ ^ 2 = cos δ ^ 2 := by
      rw [← real_inner_self_eq_norm_sq, shift_vec, inner_vec]; nlinarith
    have := norm_nonneg (shift H δ 1 0)
    nlinarith
  have hv : inner ℝ (dir 0 φ) (shift H δ 1 0) = -(cos φ * cos δ * sin H) := by
    rw [shift_vec]; unfold dir; rw [inner_vec, cos_zero, sin_zero]; ring
  have hq : DiurnalPathAtHorizon δ φ = EF.atan (.fin (|sin H| * cos δ) / .fin (tan φ)) := by
    unfold DiurnalPathAtHorizon
    dsimp only
    rw [hc, EF.sqrt_fin (sq_nonneg _), sqrt_sq_eq_abs, EF.fin_mul]
  rw [hq, hv, hn, abs_neg, abs_mul, abs_of_pos (mul_pos c1 c2)]
  by_cases ht : tan φ = 0
  · have hφ0 : sin φ = 0 := by
      rw [tan_eq_sin_div_cos, div_eq_zero_iff] at ht
      rcases ht with h | h
      · exact h
      · exact absurd h c1.ne'
    have hH : cos H = 0 := by rw [hb, ht]; ring
    have hs : sin H ^ 2 = 1 := by nlinarith
    have hs1 : |sin H| = 1 := by rw [← sq_abs] at hs; nlinarith [abs_nonneg (sin H)]
    have hφ1 : cos φ = 1 := by nlinarith
    refine ⟨π / 2, ?_, ?_, ?_⟩
    · rw [hs1, ht, EF.fin_div, if_pos rfl, if_neg (by simp [c2.ne'])]
      have hf : decide (1 * cos δ < 0) = false := by simp [c2.le]
      rw [hf]; rfl
    · rw [hs1, hφ1, abs_of_pos (by positivity), sin_pi_div_two]; ring
    · rw [abs_of_pos (by positivity)]
  · rw [EF.fin_div_ne ht, EF.atan_fin]
    refine ⟨_, rfl, ?_, ?_⟩
    · have hsφ : sin φ ≠ 0 := by
        intro h0; apply ht; rw [tan_eq_sin_div_cos, h0, zero_div]
      have hA : |arctan (|sin H| * cos δ / tan φ)| = arctan (|sin H| * cos δ / |tan φ|) := by
        rcases lt_or_gt_of_ne ht with hn | hp
        · rw [abs_of_neg hn, abs_of_nonpos, ← arctan_neg]
          · congr 1; ring
          · rw [← arctan_zero]; exact arctan_mono (div_nonpos_of_nonneg_of_nonpos (by positivity) hn.le)
        · rw [abs_of_pos hp, abs_of_nonneg]
          rw [← arctan_zero]; exact arctan_mono (by positivity)
      rw [hA, sin_arctan]
      have hs : sqrt (1 + (|sin H| * cos δ / |tan φ|) ^ 2) = cos δ / |sin φ| := by
        rw [show 1 + (|sin H| * cos δ / |tan φ|) ^ 2 = (cos δ / |sin φ|) ^ 2 from ?_, sqrt_sq (by positivity)]
        rw [div_pow, div_pow, mul_pow, sq_abs, sq_abs, sq_abs, tan_eq_sin_div_cos]
        have hb2 : cos H * (cos φ * cos δ) = -(sin φ * sin δ) := by rw [h]; field_simp
        field_simp
        clear * - e1 e2 e3 hb2
        generalize sin H = sl, cos H = cl, sin φ = sε, cos φ = cε, sin δ = sδ, cos δ = cδ at *
        grind
      have hta : |tan φ| = |sin φ| / cos φ := by rw [tan_eq_sin_div_cos, abs_div, abs_of_pos c1]
      rw [hs, hta]
      have : 0 < |sin φ| := abs_pos.2 hsφ
      field_simp
    · rw [abs_le]; exact ⟨(neg_pi_div_two_lt_arctan _).le, (arctan_lt_pi_div_two _).le⟩

theorem C104_nan (δ φ : ℝ) (hφ : |φ| < π / 2) (hδ : |δ| < π / 2) :
    DiurnalPathAtHorizon δ φ = .nan ↔ ∀ H, altitude φ δ H ≠ 0 := by
  have c1 : 0 < cos φ := cos_pos_of_mem_Ioo (abs_lt.1 hφ)
  have c2 : 0 < cos δ := cos_pos_of_mem_Ioo (abs_lt.1 hδ)
  constructor
  · intro hn H hH
    obtain ⟨J, hJ, -⟩ := C104_diurnal δ φ H hφ hδ hH
    rw [hJ] at hn
    cases hn
  · intro hno
    have hb : 1 - tan δ * tan φ * (tan δ * tan φ) < 0 := by
      by_contra hb
      have hx := abs_le.1 (abs_le_one_iff_mul_self_le_one.2 (by linarith : (tan δ * tan φ) * (tan δ * tan φ) ≤ 1))
      refine hno (arccos (-(tan δ * tan φ))) ?_
      rw [cH0_attained hφ hδ (by simp; positivity), cos_arccos (by linarith) (by linarith), sin_zero, zero_sub,
        tan_eq_sin_div_cos, tan_eq_sin_div_cos]
      field_simp
    unfold DiurnalPathAtHorizon
    dsimp only
    rw [show EF.sqrt (.fin (1 - tan δ * tan φ * (tan δ * tan φ))) = .nan by simp [EF.sqrt, hb], EF.nan_mul, EF.nan_div]
    rfl

/-- C102, C104: a body on the equator seen from latitude 60° sets at hour angle 90° with parallactic angle 30° and its path
30° from the horizon. -/
example : altitude (π / 3) 0 (π / 2) = 0 ∧ DiurnalPathAtHorizon 0 (π / 3) = .fin (π / 6) := by
  constructor
  · unfold altitude; simp
  · unfold DiurnalPathAtHorizon
    dsimp only
    rw [tan_zero, tan_pi_div_three, zero_mul, zero_mul, sub_zero, EF.sqrt_fin zero_le_one, sqrt_one, EF.fin_mul,
      EF.fin_div_ne (by positivity), EF.atan_fin, cos_zero, mul_one, ← tan_pi_div_six,
      arctan_tan (by linarith [pi_pos]) (by linarith [pi_pos])]

end Verif.Props
