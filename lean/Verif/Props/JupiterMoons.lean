import Verif.Model.JupiterMoons
import Mathlib.Analysis.Real.Pi.Bounds
import Mathlib.Analysis.SpecialFunctions.Trigonometric.Bounds
import Mathlib.Tactic
/-
C142, C143, C144: jupiter.Physical2 and the satellites of Jupiter.
-/
namespace Verif.Props

open Real Verif.Go Verif.Model Verif.Model.JupMoons

theorem jdeg : 0 < deg ∧ 0.01745 < deg ∧ deg < 0.017454 := by
  have h3 := pi_gt_d4
  have h4 := pi_lt_d4
  unfold deg
  refine ⟨by positivity, by linarith, by linarith⟩

/-- The distance of the Sun is between 0.98 and 1.017, of Jupiter from the Sun between 4.95 and 5.47. -/
theorem jup_radii (d : ℝ) : 0.98 < R d ∧ R d < 1.0171 ∧ 4.95 < r d ∧ r d < 5.47 := by
  unfold R r
  rw [cos_two_mul, cos_two_mul]
  have a := neg_one_le_cos (M d)
  have b := cos_le_one (M d)
  have c := neg_one_le_cos (N d)
  have e := cos_le_one (N d)
  refine ⟨?_, ?_, ?_, ?_⟩ <;> nlinarith

theorem jup_Δsq (d : ℝ) : Δ d ^ 2 = (R d * sin (K d)) ^ 2 + (r d - R d * cos (K d)) ^ 2 ∧ 0 < Δ d ∧ r d - R d ≤ Δ d ∧ Δ d ≤ r d + R d := by
  obtain ⟨a, b, c, e⟩ := jup_radii d
  have hc := neg_one_le_cos (K d)
  have hc' := cos_le_one (K d)
  have hs := sin_sq_add_cos_sq (K d)
  have h : r d * r d + R d * R d - 2 * r d * R d * cos (K d) = (R d * sin (K d)) ^ 2 + (r d - R d * cos (K d)) ^ 2 := by
    linear_combination (-R d ^ 2) * hs
  have hRr : 0 < r d * R d := by nlinarith
  have hlo : (r d - R d) ^ 2 ≤ r d * r d + R d * R d - 2 * r d * R d * cos (K d) := by nlinarith
  have hhi : r d * r d + R d * R d - 2 * r d * R d * cos (K d) ≤ (r d + R d) ^ 2 := by nlinarith
  have h0 : r d - R d ≤ Δ d := by unfold Δ; exact le_sqrt_of_sq_le hlo
  refine ⟨?_, by linarith, h0, ?_⟩
  · unfold Δ
    rw [sq_sqrt (le_trans (sq_nonneg _) hlo), h]
  · unfold Δ
    rw [sqrt_le_left (by linarith)]
    exact hhi

/-- C142.  No NaN, and the triangle of Sun, Earth and Jupiter: ψ is the angle at Jupiter from the Sun to the Earth, K being the angle at the Sun, and it
is less than 12°.  The distance is between the difference and the sum of the distances from the Sun. -/
theorem C142_triangle (d : ℝ) :
    |R d / Δ d * sin (K d)| ≤ 1 ∧ Δ d * sin (ψ d) = R d * sin (K d) ∧ Δ d * cos (ψ d) = r d - R d * cos (K d) ∧ |ψ d| < 12 * deg ∧ |sin (ψ d)| ≤ 0.2056 ∧
    3.9 < Δ d ∧ Δ d < 6.5 := by
  obtain ⟨a, b, c, e⟩ := jup_radii d
  obtain ⟨h, h0, h1, h2⟩ := jup_Δsq d
  have hc' := cos_le_one (K d)
  have hpos : 0 < r d - R d * cos (K d) := by nlinarith
  have hle : |R d / Δ d * sin (K d)| ≤ 1 := by
    rw [show R d / Δ d * sin (K d) = R d * sin (K d) / Δ d by ring, abs_div, abs_of_pos h0, div_le_one h0]
    apply abs_le_of_sq_le_sq _ h0.le
    nlinarith [sq_nonneg (r d - R d * cos (K d))]
  obtain ⟨l1, l2⟩ := abs_le.1 hle
  have hsin : sin (ψ d) = R d / Δ d * sin (K d) := sin_arcsin l1 l2
  have s1 : Δ d * sin (ψ d) = R d * sin (K d) := by rw [hsin]; field_simp
  have hcn : 0 ≤ cos (ψ d) := cos_arcsin_nonneg _
  have s2 : Δ d * cos (ψ d) = r d - R d * cos (K d) := by
    have := sin_sq_add_cos_sq (ψ d)
    have e2 : (Δ d * cos (ψ d)) ^ 2 = (r d - R d * cos (K d)) ^ 2 := by
      have : (Δ d * sin (ψ d)) ^ 2 = (R d * sin (K d)) ^ 2 := by rw [s1]
      nlinarith
    exact (sq_eq_sq₀ (by positivity) hpos.le).1 e2
    -- the sine is at most R/r
  have hk := sin_sq_add_cos_sq (K d)
  have hsq : (r d * sin (ψ d)) ^ 2 ≤ R d ^ 2 := by
    have h5 : (Δ d * (r d * sin (ψ d))) ^ 2 ≤ (Δ d * R d) ^ 2 := by
      rw [show Δ d * (r d * sin (ψ d)) = r d * (Δ d * sin (ψ d)) by ring, s1, mul_pow (Δ d), h]
      have : (R d * sin (K d)) ^ 2 + (r d - R d * cos (K d)) ^ 2 = (r d * sin (K d)) ^ 2 + (R d - r d * cos (K d)) ^ 2 := by
        linear_combination (R d ^ 2 - r d ^ 2) * hk
      rw [this]
      nlinarith [mul_nonneg (sq_nonneg (R d)) (sq_nonneg (R d - r d * cos (K d)))]
    rw [mul_pow, mul_pow (Δ d)] at h5
    exact le_of_mul_le_mul_left h5 (by positivity)
  have hab : |sin (ψ d)| ≤ 0.2056 := by
    apply abs_le_of_sq_le_sq _ (by norm_num)
    rw [mul_pow] at hsq
    have : (4.95 : ℝ) ^ 2 ≤ r d ^ 2 := by nlinarith
    have : R d ^ 2 ≤ 1.0171 ^ 2 := by nlinarith
    nlinarith [sq_nonneg (sin (ψ d))]
  have h12 : 0.2056 < sin (12 * deg) := by
    obtain ⟨g0, g1, g2⟩ := jdeg
    have := sin_gt_sub_cube (x := 12 * deg) (by positivity)
    nlinarith [pow_le_pow_left₀ (by positivity : 0 ≤ 12 * deg) (by linarith : 12 * deg ≤ 0.2095) 3]
  obtain ⟨g0, g1, g2⟩ := jdeg
  have hp3 := pi_gt_three
  have hr1 : -(π / 2) ≤ ψ d := neg_pi_div_two_le_arcsin (R d / Δ d * sin (K d))
  have hr2 : ψ d ≤ π / 2 := arcsin_le_pi_div_two (R d / Δ d * sin (K d))
  refine ⟨hle, s1, s2, ?_, hab, by linarith, by linarith⟩
  rw [abs_lt]
  obtain ⟨m1, m2⟩ := abs_le.1 hab
  constructor
  · by_contra hn
    push Not at hn
    have := sin_le_sin_of_le_of_le_pi_div_two hr1 (by linarith) hn
    rw [sin_neg] at this
    linarith
  · by_contra hn
    push Not at hn
    have := sin_le_sin_of_le_of_le_pi_div_two (by linarith) hr2 hn
    linarith

theorem jup_bound {ρ t w u : ℝ} (ρ0 : 0 ≤ ρ) (ρ1 : ρ ≤ 0.2587) (t0 : 0 ≤ t) (w0 : 0 ≤ w) (w1 : w ≤ 0.0423)
    (hcs : 2.22 * t + 1.3 * |u| ≤ 2.573) (hn : u < 0 → ρ ≤ 0.2056)
    (hx : ρ * t ≤ 0.2056) : 2.22 * (ρ * t) + 1.3 * |ρ * u - w| ≤ 0.67 := by
  have hm : ρ * (2.22 * t + 1.3 * |u|) ≤ ρ * 2.573 := mul_le_mul_of_nonneg_left hcs ρ0
  have a0 := abs_nonneg u
  have e1 : |ρ * u - w| ≤ ρ * |u| + w := by
    refine (abs_sub _ _).trans ?_
    rw [abs_mul, abs_of_nonneg ρ0, abs_of_nonneg w0]
  rcases lt_or_ge u 0 with h | h
  · have := hn h
    linarith
  · rcases le_or_gt 0 (ρ * u - w) with h' | h'
    · rw [abs_of_nonneg h']
      rw [abs_of_nonneg h] at hm
      linarith
    · rw [abs_of_neg h']
      rw [abs_of_nonneg h] at hm
      have := mul_nonneg ρ0 h
      linarith

theorem jup_cs {s c : ℝ} (h : s ^ 2 + c ^ 2 = 1) : 2.22 * |s| + 1.3 * |c| ≤ 2.573 := by
  rw [← sq_abs s, ← sq_abs c] at h
  refine le_of_sq_le_sq ?_ (by norm_num)
  nlinarith [sq_nonneg (1.3 * |s| - 2.22 * |c|)]

theorem jup_ratio {r R Δ c : ℝ} (a : 4.95 ≤ r) (e : R ≤ 1.0171) (R0 : 0 < R) (h0 : 0 < Δ)
    (h : Δ ^ 2 = r ^ 2 + R ^ 2 - 2 * r * R * c) (hc : c < 0) : R / Δ ≤ 0.2056 := by
  have : r ≤ Δ := by
    refine le_of_sq_le_sq ?_ h0.le
    have : 0 < r * R * (-c) := by have : 0 < r := by linarith
                                  have : 0 < -c := by linarith
                                  positivity
    nlinarith [sq_nonneg R]
  rw [div_le_iff₀ h0]; linarith

/-- The difference of the declinations of Earth and Sun. -/
theorem jup_DE_DS (d : ℝ) : |DE d - DS d| ≤ 0.67 * deg := by
  obtain ⟨a, b, c, e⟩ := jup_radii d
  obtain ⟨h, h0, h1, h2⟩ := jup_Δsq d
  obtain ⟨-, s1, s2, -, hx5, d1, d2⟩ := C142_triangle d
  have hcn : 0 ≤ cos (ψ d) := cos_arcsin_nonneg _
  obtain ⟨g0, -, -⟩ := jdeg
  obtain ⟨x, hx⟩ : ∃ x, x = sin (ψ d) := ⟨_, rfl⟩
  obtain ⟨y, hy⟩ : ∃ y, y = (r d - Δ d) / Δ d := ⟨_, rfl⟩
  have hk := sin_sq_add_cos_sq (K d)
  have hq := sin_sq_add_cos_sq (ψ d)
  have hcp := cos_le_one (ψ d)
  have key : 2.22 * |x| + 1.3 * |y| ≤ 0.67 := by
    rw [← hx] at hx5 s1 hq
    have hyΔ : Δ d * y = R d * cos (K d) - Δ d * (1 - cos (ψ d)) := by rw [hy]; field_simp; linarith
    obtain ⟨ρ, hρ⟩ : ∃ ρ, ρ = R d / Δ d := ⟨_, rfl⟩
    have hρΔ : Δ d * ρ = R d := by rw [hρ]; field_simp
    have ρ0 : 0 < ρ := by rw [hρ]; positivity
    have ρ1 : ρ ≤ 0.2587 := by rw [hρ, div_le_iff₀ h0]; nlinarith
    have hxv : x = ρ * sin (K d) := by
      have : Δ d * x = Δ d * (ρ * sin (K d)) := by rw [s1, ← mul_assoc, hρΔ]
      exact mul_left_cancel₀ h0.ne' this
    have hyv : y = ρ * cos (K d) - (1 - cos (ψ d)) := by
      have : Δ d * y = Δ d * (ρ * cos (K d) - (1 - cos (ψ d))) := by rw [hyΔ, mul_sub (Δ d) (ρ * cos (K d)), ← mul_assoc, hρΔ]
      exact mul_left_cancel₀ h0.ne' this
    have hv : 1 - cos (ψ d) ≤ 0.0423 := by
      have : x ^ 2 ≤ 0.0423 := by
        rw [← sq_abs]
        have := abs_nonneg x
        nlinarith
      nlinarith
    have hv0 : 0 ≤ 1 - cos (ψ d) := by linarith
    have hxa : |x| = ρ * |sin (K d)| := by rw [hxv, abs_mul, abs_of_pos ρ0]
    have hcs : 2.22 * |sin (K d)| + 1.3 * |cos (K d)| ≤ 2.573 := jup_cs hk
    have n1 := abs_nonneg (sin (K d))
    have hΔr : cos (K d) < 0 → ρ ≤ 0.2056 := by
      intro hc
      rw [hρ]
      exact jup_ratio (r := r d) (c := cos (K d)) (by linarith) (by linarith) (by linarith) h0 (by rw [h]; linear_combination R d ^ 2 * hk) hc
    rw [hxa] at hx5 ⊢
    rw [hyv]
    clear hxv
    clear hyΔ hρΔ hyv hxa hq hcp hcn s1 s2 hx hy h h1 h2 d1 d2 a b c e hk
    generalize |sin (K d)| = t at *
    generalize 1 - cos (ψ d) = w at *
    generalize cos (K d) = u at *
    exact jup_bound ρ0.le ρ1 n1 hv0 hv hcs hΔr hx5
  have e1 : DE d - DS d = -(deg * (2.22 * x * cos (lam d + 22 * deg) + 1.3 * y * sin (lam d - 100.5 * deg))) := by
    unfold DE; rw [hx, hy]; ring
  rw [e1, abs_neg, abs_mul, abs_of_pos g0, mul_comm 0.67]
  refine mul_le_mul_of_nonneg_left ?_ g0.le
  have t1 : |2.22 * x * cos (lam d + 22 * deg)| ≤ 2.22 * |x| := by
    rw [abs_mul, abs_mul, abs_of_pos (by norm_num : (0:ℝ) < 2.22)]
    exact mul_le_of_le_one_right (by positivity) (abs_cos_le_one _)
  have t2 : |1.3 * y * sin (lam d - 100.5 * deg)| ≤ 1.3 * |y| := by
    rw [abs_mul, abs_mul, abs_of_pos (by norm_num : (0:ℝ) < 1.3)]
    exact mul_le_of_le_one_right (by positivity) (abs_sin_le_one _)
  exact (abs_add_le _ _).trans (by linarith)

/-- C142.  Physical2: the declinations are at most 3.12° and 3.79° and differ by at most 0.67°; each central meridian is in [0, 2π) and congruent to the
rotation of its system at the moment the light left Jupiter, plus the phase correction of the illuminated disk, (1 − cos ψ)/2 against the sign of sin K;
between them the two systems differ by 23.75° + 7.63° per day. -/
theorem C142_physical (jde : ℝ) :
    let d := jde - 2451545
    let P := Physical2 jde
    |P.1| ≤ 3.12 * deg ∧ |P.2.1| ≤ 3.79 * deg ∧ |P.2.1 - P.1| ≤ 0.67 * deg ∧
    (0 ≤ P.2.2.1 ∧ P.2.2.1 < 2 * π) ∧ (0 ≤ P.2.2.2 ∧ P.2.2.2 < 2 * π) ∧
    (∃ k : ℤ, P.2.2.1 = 210.98 * deg + 877.8169088 * deg * (d - Δ d / 173) + ψ d - B d - SignType.sign (sin (ψ d)) * ((1 - cos (ψ d)) / 2) + k * (2 * π)) ∧
    (∃ k : ℤ, P.2.2.1 - P.2.2.2 = 23.75 * deg + 7.63 * deg * (d - Δ d / 173) + k * (2 * π)) := by
  intro d P
  obtain ⟨g0, -, -⟩ := jdeg
  have hDS : |DS d| ≤ 3.12 * deg := by
    unfold DS
    rw [abs_mul, abs_of_pos (by positivity)]
    exact mul_le_of_le_one_right (by positivity) (abs_sin_le_one _)
  have hD := jup_DE_DS d
  obtain ⟨C, hC⟩ : ∃ C, C = if sin (K d) > 0 then -(sin (ψ d / 2) * sin (ψ d / 2)) else sin (ψ d / 2) * sin (ψ d / 2) := ⟨_, rfl⟩
  have hP : P = (DS d, DE d, mod1 (210.98 * deg + 877.8169088 * deg * dd d + ψ d - B d + C), mod1 (187.23 * deg + 870.1869088 * deg * dd d + ψ d - B d + C)) := by
    rw [hC]; rfl
  rw [hP]
  obtain ⟨a1, a2, k1, a3⟩ := mod1_eq (210.98 * deg + 877.8169088 * deg * dd d + ψ d - B d + C)
  obtain ⟨b1, b2, k2, b3⟩ := mod1_eq (187.23 * deg + 870.1869088 * deg * dd d + ψ d - B d + C)
  have hdd : dd d = d - Δ d / 173 := rfl
  refine ⟨hDS, ?_, hD, ⟨a1, a2⟩, ⟨b1, b2⟩, ⟨-k1, ?_⟩, ⟨k2 - k1, ?_⟩⟩
  · have := abs_le.1 hDS
    have := abs_le.1 hD
    exact abs_le.2 ⟨by linarith, by linarith⟩
  · have hCv : C = -(SignType.sign (sin (ψ d)) * ((1 - cos (ψ d)) / 2) : ℝ) := by
      obtain ⟨-, s1, -, h12, -, d1, -⟩ := C142_triangle d
      obtain ⟨a, -, -, -⟩ := jup_radii d
      have h2 : sin (ψ d / 2) * sin (ψ d / 2) = (1 - cos (ψ d)) / 2 := by
        have := sin_sq_eq_half_sub (ψ d / 2)
        rw [show 2 * (ψ d / 2) = ψ d by ring] at this
        linarith [sq (sin (ψ d / 2))]
      rw [hC, h2]
      rcases lt_trichotomy (sin (K d)) 0 with h | h | h
      · have : sin (ψ d) < 0 := by
          have : Δ d * sin (ψ d) < 0 := by rw [s1]; exact mul_neg_of_pos_of_neg (by linarith) h
          exact (pos_iff_neg_of_mul_neg this).1 (by linarith)
        rw [if_neg (by linarith), sign_neg this]; simp
      · have : sin (ψ d) = 0 := by
          rw [h, mul_zero] at s1
          exact (mul_eq_zero.1 s1).resolve_left (by linarith)
        have hz : ψ d = 0 := by
          have : ψ d = arcsin 0 := by unfold ψ; rw [h, mul_zero]
          rw [this, arcsin_zero]
        rw [if_neg (by linarith), hz]; simp
      · have : 0 < sin (ψ d) := by
          have : 0 < Δ d * sin (ψ d) := by rw [s1]; exact mul_pos (by linarith) h
          exact (pos_iff_pos_of_mul_pos this).1 (by linarith)
        rw [if_pos h, sign_pos this]; simp
    rw [← hdd]; push_cast
    linarith
  · rw [← hdd]; push_cast
    linarith

/-- C143.  Positions: each X and Y are the projection of a circle in the plane of the equator as seen from the declination DE of Physical2: X = ρ sin U,
Y = −ρ cos U sin DE, with the four radii in disjoint ranges.  So |X| never exceeds the radius, and (X, Y) is on the ellipse. -/
theorem C143_ellipse (jde : ℝ) :
    ∃ ρ1 ρ2 ρ3 ρ4 : ℝ, (5.8813 ≤ ρ1 ∧ ρ1 ≤ 5.9301) ∧ (9.3084 ≤ ρ2 ∧ ρ2 ≤ 9.4848) ∧ (14.9667 ≤ ρ3 ∧ ρ3 ≤ 15.0099) ∧ (26.1688 ≤ ρ4 ∧ ρ4 ≤ 26.5566) ∧
    let P := Positions jde
    let s := sin (Physical2 jde).2.1
    (∃ U, P.1 = (ρ1 * sin U, -ρ1 * cos U * s)) ∧ (∃ U, P.2.1 = (ρ2 * sin U, -ρ2 * cos U * s)) ∧
    (∃ U, P.2.2.1 = (ρ3 * sin U, -ρ3 * cos U * s)) ∧ (∃ U, P.2.2.2 = (ρ4 * sin U, -ρ4 * cos U * s)) := by
  refine ⟨r1 (jde - 2451545), r2 (jde - 2451545), r3 (jde - 2451545), r4 (jde - 2451545), ?_, ?_, ?_, ?_, ⟨U1 _, rfl⟩, ⟨U2 _, rfl⟩, ⟨U3 _, rfl⟩, ⟨U4 _, rfl⟩⟩
  · unfold r1
    have := neg_one_le_cos (2 * (u1 (jde - 2451545) - u2 (jde - 2451545)))
    have := cos_le_one (2 * (u1 (jde - 2451545) - u2 (jde - 2451545)))
    constructor <;> linarith
  · unfold r2
    have := neg_one_le_cos (2 * (u2 (jde - 2451545) - u3 (jde - 2451545)))
    have := cos_le_one (2 * (u2 (jde - 2451545) - u3 (jde - 2451545)))
    constructor <;> linarith
  · unfold r3
    have := neg_one_le_cos (G (jde - 2451545))
    have := cos_le_one (G (jde - 2451545))
    constructor <;> linarith
  · unfold r4
    have := neg_one_le_cos (H (jde - 2451545))
    have := cos_le_one (H (jde - 2451545))
    constructor <;> linarith

theorem jup_sDE (jde : ℝ) : |sin (Physical2 jde).2.1| < 0.0662 := by
  obtain ⟨-, h, -⟩ := C142_physical jde
  obtain ⟨g0, g1, g2⟩ := jdeg
  refine lt_of_le_of_lt abs_sin_le_abs (lt_of_le_of_lt h ?_)
  linarith

/-- C143.  Io, Europa and Ganymede pass in front of or behind Jupiter's disk (of radius 1) at every conjunction: |Y| < 1 always. -/
theorem C143_inner_moons_cross (jde : ℝ) :
    |(Positions jde).1.2| < 0.4 ∧ |(Positions jde).2.1.2| < 0.63 ∧ |(Positions jde).2.2.1.2| < 1 ∧ |(Positions jde).2.2.2.2| < 1.76 := by
  obtain ⟨ρ1, ρ2, ρ3, ρ4, h1, h2, h3, h4, ⟨x1, e1⟩, ⟨x2, e2⟩, ⟨x3, e3⟩, ⟨x4, e4⟩⟩ := C143_ellipse jde
  have hs := jup_sDE jde
  have key : ∀ ρ m x : ℝ, 0 < ρ → ρ ≤ m → |(-ρ * cos x * sin (Physical2 jde).2.1)| ≤ m * 0.0662 := by
    intro ρ m x h0 hm
    rw [abs_mul, abs_mul, abs_neg, abs_of_pos h0]
    refine mul_le_mul ?_ hs.le (abs_nonneg _) (by linarith)
    exact (mul_le_of_le_one_right h0.le (abs_cos_le_one _)).trans hm
  rw [e1, e2, e3, e4]
  refine ⟨(key ρ1 _ x1 (by linarith) h1.2).trans_lt ?_, (key ρ2 _ x2 (by linarith) h2.2).trans_lt ?_, (key ρ3 _ x3 (by linarith) h3.2).trans_lt ?_,
    (key ρ4 _ x4 (by linarith) h4.2).trans_lt ?_⟩ <;> norm_num

/-- The Laplace relation between the corrected arguments, for 270 000 years on either side of J2000. -/
theorem laplace (d : ℝ) (hd : |d| ≤ 1e8) : ∃ s, |s| ≤ 15 * deg ∧ U1 d - 3 * U2 d + 2 * U3 d = π + s + (-3 : ℤ) * (2 * π) := by
  obtain ⟨g0, g1, g2⟩ := jdeg
  have h360 : π = 180 * deg := by unfold deg; ring
  obtain ⟨x1, hx1⟩ : ∃ x, x = sin (2 * (u1 d - u2 d)) := ⟨_, rfl⟩
  obtain ⟨x2, hx2⟩ : ∃ x, x = sin (2 * (u2 d - u3 d)) := ⟨_, rfl⟩
  obtain ⟨x3, hx3⟩ : ∃ x, x = sin (G d) := ⟨_, rfl⟩
  obtain ⟨a1, b1⟩ := abs_le.1 (hx1 ▸ abs_sin_le_one (2 * (u1 d - u2 d)))
  obtain ⟨a2, b2⟩ := abs_le.1 (hx2 ▸ abs_sin_le_one (2 * (u2 d - u3 d)))
  obtain ⟨a3, b3⟩ := abs_le.1 (hx3 ▸ abs_sin_le_one (G d))
  obtain ⟨-, -, -, -, -, d1, d2⟩ := C142_triangle d
  obtain ⟨c1, c2⟩ := abs_le.1 hd
  refine ⟨deg * (0.0001 + 0.0000001 * dd d + 0.473 * x1 - 3.195 * x2 + 0.33 * x3), ?_, ?_⟩
  · rw [abs_mul, abs_of_pos g0, mul_comm]
    refine mul_le_mul_of_nonneg_right ?_ g0.le
    unfold dd
    rw [abs_le]
    constructor <;> linarith
  · unfold U1 U2 U3
    rw [← hx1, ← hx2, ← hx3, h360]
    unfold u1 u2 u3
    push_cast
    ring

theorem laplace_core {s1 c1 s2 c2 s3 c3 : ℝ} (h1 : s1 ^ 2 + c1 ^ 2 = 1) (h2 : s2 ^ 2 + c2 ^ 2 = 1) (h3 : s3 ^ 2 + c3 ^ 2 = 1)
    (a1 : |s1| ≤ 0.171) (a2 : |s2| ≤ 0.108) (a3 : |s3| ≤ 0.067) (hp : 0 < c1 * c2) :
    0 < (c1 * c2 + s1 * s2) * (1 - 2 * (s3 * c2 - c3 * s2) ^ 2) - (s1 * c2 - c1 * s2) * (2 * (s3 * c2 - c3 * s2) * (c3 * c2 + s3 * s2)) := by
  have ab : ∀ x y : ℝ, x ^ 2 + y ^ 2 = 1 → |y| ≤ 1 := fun x y h => by
    apply abs_le_of_sq_le_sq _ (by norm_num); nlinarith [sq_nonneg x]
  have b1 := ab _ _ h1
  have b2 := ab _ _ h2
  have b3 := ab _ _ h3
  have hsq1 : s1 ^ 2 ≤ 0.0293 := by rw [← sq_abs]; nlinarith [abs_nonneg s1]
  have hsq2 : s2 ^ 2 ≤ 0.0117 := by rw [← sq_abs]; nlinarith [abs_nonneg s2]
  have hcc : 0.97 ≤ c1 * c2 := by
    refine (sq_le_sq₀ (by norm_num) hp.le).1 ?_
    rw [mul_pow]
    have : 0.9707 ≤ c1 ^ 2 := by linarith
    have : 0.9883 ≤ c2 ^ 2 := by linarith
    nlinarith
  have hss : |s1 * s2| ≤ 0.171 * 0.108 := by rw [abs_mul]; exact mul_le_mul a1 a2 (abs_nonneg _) (by norm_num)
  obtain ⟨A, hA⟩ : ∃ A, A = c1 * c2 + s1 * s2 := ⟨_, rfl⟩
  obtain ⟨D, hD⟩ : ∃ D, D = s1 * c2 - c1 * s2 := ⟨_, rfl⟩
  obtain ⟨x, hx⟩ : ∃ x, x = s3 * c2 - c3 * s2 := ⟨_, rfl⟩
  obtain ⟨y, hy⟩ : ∃ y, y = c3 * c2 + s3 * s2 := ⟨_, rfl⟩
  have hA1 : 0.95 ≤ A := by rw [hA]; linarith [(abs_le.1 hss).1]
  have hpr : ∀ s c m : ℝ, |s| ≤ m → |c| ≤ 1 → |s * c| ≤ m := fun s c m u v => by
    rw [abs_mul]; exact (mul_le_of_le_one_right (abs_nonneg _) v).trans u
  have hD1 : |D| ≤ 0.28 := by
    rw [hD]
    refine (abs_sub _ _).trans ?_
    have := hpr s1 c2 _ a1 b2
    have := hpr s2 c1 _ a2 b1
    rw [mul_comm s2] at this
    linarith
  have hx1 : |x| ≤ 0.175 := by
    rw [hx]
    refine (abs_sub _ _).trans ?_
    have := hpr s3 c2 _ a3 b2
    have := hpr s2 c3 _ a2 b3
    rw [mul_comm s2] at this
    linarith
  have hy1 : |y| ≤ 1 := by
    refine ab x y ?_
    rw [hx, hy]
    grind
  have hx2 : x ^ 2 ≤ 0.031 := by rw [← sq_abs]; nlinarith [abs_nonneg x]
  rw [← hA, ← hD, ← hx, ← hy]
  have e1 : 0.95 * 0.938 ≤ A * (1 - 2 * x ^ 2) := mul_le_mul hA1 (by linarith) (by norm_num) (by linarith)
  have e2 : |D * (2 * x * y)| ≤ 0.28 * 0.35 := by
    rw [abs_mul]
    refine mul_le_mul hD1 ?_ (abs_nonneg _) (by norm_num)
    refine hpr _ _ _ ?_ hy1
    rw [abs_mul, abs_of_pos (by norm_num : (0:ℝ) < 2)]; linarith
  linarith [(abs_le.1 e2).2]

/-- C144.  The Laplace resonance, as observed: for 270 000 years on either side of J2000, Io, Europa and Ganymede are never all three in front of Jupiter's
disk, nor all behind.  Whenever the three have |X| < 1, Io and Europa are on opposite sides: the cosines of their arguments (positive in front) have a product
below zero, and their Y are not of the same sign. -/
theorem C144_no_triple_transit (jde : ℝ) (hd : |jde - 2451545| ≤ 1e8)
    (h1 : |(Positions jde).1.1| < 1) (h2 : |(Positions jde).2.1.1| < 1) (h3 : |(Positions jde).2.2.1.1| < 1) :
    (Positions jde).1.2 * (Positions jde).2.1.2 ≤ 0 ∧
    (sin (Physical2 jde).2.1 ≠ 0 → (Positions jde).1.2 * (Positions jde).2.1.2 < 0) := by
  obtain ⟨d, hd'⟩ : ∃ d, d = jde - 2451545 := ⟨_, rfl⟩
  rw [← hd'] at hd
  have hP : Positions jde = (xy (sin (DE d)) (U1 d) (r1 d), xy (sin (DE d)) (U2 d) (r2 d), xy (sin (DE d)) (U3 d) (r3 d), xy (sin (DE d)) (U4 d) (r4 d)) := by
    rw [hd']; rfl
  have hS : (Physical2 jde).2.1 = DE d := by rw [hd']; rfl
  rw [hP] at h1 h2 h3 ⊢
  rw [hS]
  simp only [xy] at h1 h2 h3 ⊢
  have q1 : 5.8813 ≤ r1 d := by unfold r1; linarith [cos_le_one (2 * (u1 d - u2 d))]
  have q2 : 9.3084 ≤ r2 d := by unfold r2; linarith [cos_le_one (2 * (u2 d - u3 d))]
  have q3 : 14.9667 ≤ r3 d := by unfold r3; linarith [cos_le_one (G d)]
  have bnd : ∀ ρ m s : ℝ, m ≤ ρ → 0 < m → |ρ * s| < 1 → |s| ≤ 1 / m := by
    intro ρ m s hm h0 h
    rw [abs_mul, abs_of_pos (by linarith)] at h
    rw [le_div_iff₀ h0]
    nlinarith [mul_le_mul_of_nonneg_right hm (abs_nonneg s)]
  have a1 := (bnd _ _ _ q1 (by norm_num) h1).trans (by norm_num : (1 / 5.8813 : ℝ) ≤ 0.171)
  have a2 := (bnd _ _ _ q2 (by norm_num) h2).trans (by norm_num : (1 / 9.3084 : ℝ) ≤ 0.108)
  have a3 := (bnd _ _ _ q3 (by norm_num) h3).trans (by norm_num : (1 / 14.9667 : ℝ) ≤ 0.067)
  have neg : cos (U1 d) * cos (U2 d) < 0 := by
    by_contra hn
    push Not at hn
    have hne : 0 < cos (U1 d) * cos (U2 d) := by
      refine lt_of_le_of_ne hn ?_
      have z : ∀ x m : ℝ, |sin x| ≤ m → m < 1 → cos x ≠ 0 := by
        intro x m hx hm h0
        have := sin_sq_add_cos_sq x
        rw [h0, ← sq_abs] at this
        nlinarith [abs_nonneg (sin x)]
      exact (mul_ne_zero (z _ _ a1 (by norm_num)) (z _ _ a2 (by norm_num))).symm
    have := laplace_core (sin_sq_add_cos_sq (U1 d)) (sin_sq_add_cos_sq (U2 d)) (sin_sq_add_cos_sq (U3 d)) a1 a2 a3 hne
    obtain ⟨s, hs, e⟩ := laplace d hd
    have e2 : cos (U1 d - 3 * U2 d + 2 * U3 d) = (cos (U1 d) * cos (U2 d) + sin (U1 d) * sin (U2 d)) * (1 - 2 * (sin (U3 d) * cos (U2 d) - cos (U3 d) * sin (U2 d)) ^ 2)
        - (sin (U1 d) * cos (U2 d) - cos (U1 d) * sin (U2 d)) * (2 * (sin (U3 d) * cos (U2 d) - cos (U3 d) * sin (U2 d)) * (cos (U3 d) * cos (U2 d) + sin (U3 d) * sin (U2 d))) := by
      rw [show U1 d - 3 * U2 d + 2 * U3 d = (U1 d - U2 d) + 2 * (U3 d - U2 d) by ring, cos_add, sin_two_mul, cos_two_mul', ← cos_sub, ← sin_sub (U3 d), ← sin_sub (U1 d), ← cos_sub]
      have := sin_sq_add_cos_sq (U3 d - U2 d)
      linear_combination cos (U1 d - U2 d) * this
    rw [← e2, e, cos_add_int_mul_two_pi, add_comm, cos_add_pi] at this
    obtain ⟨g0, g1, g2⟩ := jdeg
    have hc : 0 < cos s := by
      refine cos_pos_of_mem_Ioo ⟨?_, ?_⟩ <;> linarith [abs_le.1 hs, pi_gt_three]
    linarith
  have e : -r1 d * cos (U1 d) * sin (DE d) * (-r2 d * cos (U2 d) * sin (DE d)) = r1 d * r2 d * sin (DE d) ^ 2 * (cos (U1 d) * cos (U2 d)) := by ring
  rw [e]
  have hr : 0 < r1 d * r2 d := mul_pos (by linarith) (by linarith)
  refine ⟨mul_nonpos_of_nonneg_of_nonpos (by positivity) neg.le, fun hs => ?_⟩
  exact mul_neg_of_pos_of_neg (mul_pos hr (by positivity)) neg

theorem small_off {x o b : ℝ} {k : ℤ} (e : x = o + k * π) (h : |o| ≤ b) : |sin x| ≤ b := by
  have : |sin x| = |sin o| := by
    have h2 : sin x ^ 2 = sin o ^ 2 := by
      rw [e, sin_add_int_mul_pi, mul_pow]
      rcases Int.even_or_odd k with hk | hk <;> simp [hk.neg_one_zpow]
    exact (sq_eq_sq_iff_abs_eq_abs _ _).1 h2
  rw [this]
  exact abs_sin_le_abs.trans h

set_option maxHeartbeats 1000000 in
/-- The hypotheses hold, for instance, at JDE −6490705. -/
example : |(-6490705 : ℝ) - 2451545| ≤ 1e8 ∧ |(Positions (-6490705)).1.1| < 1 ∧ |(Positions (-6490705)).2.1.1| < 1 ∧ |(Positions (-6490705)).2.2.1.1| < 1 := by
  refine ⟨by norm_num [abs_le], ?_⟩
  obtain ⟨d, hd⟩ : ∃ d : ℝ, d = -8942250 := ⟨_, rfl⟩
  have hP : Positions (-6490705) = (xy (sin (DE d)) (U1 d) (r1 d), xy (sin (DE d)) (U2 d) (r2 d), xy (sin (DE d)) (U3 d) (r3 d), xy (sin (DE d)) (U4 d) (r4 d)) := by
    rw [hd]; unfold Positions; norm_num
  rw [hP]
  simp only [xy]
  obtain ⟨g0, g1, g2⟩ := jdeg
  have h180 : π = 180 * deg := by unfold deg; ring
  have hV := abs_le.1 (abs_sin_le_one (V d))
  -- N is close to 90°
  obtain ⟨ε, hε⟩ : ∃ ε, ε = (0.496075 + 0.329 * sin (V d)) * deg := ⟨_, rfl⟩
  have hε1 : |ε| ≤ 0.0145 := by
    rw [hε, abs_mul, abs_of_pos g0]
    have : |0.496075 + 0.329 * sin (V d)| ≤ 0.83 := abs_le.2 ⟨by linarith, by linarith⟩
    nlinarith [abs_nonneg (0.496075 + 0.329 * sin (V d))]
  have hN : N d = ε + π / 2 + (-2064 : ℤ) * (2 * π) := by
    unfold N; rw [hε, h180, hd]; push_cast; ring
  have hsN : sin (N d) = cos ε := by rw [hN, sin_add_int_mul_two_pi, sin_add_pi_div_two]
  have hcN : cos (N d) = -sin ε := by rw [hN, cos_add_int_mul_two_pi, cos_add_pi_div_two]
  have hcε : 0.9998 ≤ cos ε := by
    have := one_sub_sq_div_two_le_cos (x := ε)
    have : ε ^ 2 ≤ 0.0145 ^ 2 := by rw [← sq_abs]; exact pow_le_pow_left₀ (abs_nonneg _) hε1 2
    linarith
  have hcε' := cos_le_one ε
  have hsε := abs_le.1 (abs_sin_le_abs.trans hε1 : |sin ε| ≤ 0.0145)
  have h2N : |sin (2 * N d)| ≤ 0.029 := by
    rw [sin_two_mul, hsN, hcN, abs_le]
    constructor <;> nlinarith
  have h2N' := abs_le.1 h2N
  obtain ⟨b, hb⟩ : ∃ b, b = 5.555 * (sin (N d) - 1) + 0.168 * sin (2 * N d) := ⟨_, rfl⟩
  have hB : B d = 5.555 * deg + b * deg := by unfold B; rw [hb]; ring
  have hb1 : -0.007 ≤ b ∧ b ≤ 0.007 := by rw [hb, hsN]; constructor <;> linarith
  -- K is close to 0
  have hA1 := abs_le.1 (abs_sin_le_one (M d))
  have hA2 := abs_le.1 (abs_sin_le_one (2 * M d))
  obtain ⟨κ, hκ⟩ : ∃ κ, κ = (-0.131275 - 0.329 * sin (V d) + 1.915 * sin (M d) + 0.02 * sin (2 * M d) - b) * deg := ⟨_, rfl⟩
  have hκ1 : |κ| ≤ 0.042 := by
    rw [hκ, abs_mul, abs_of_pos g0]
    have : |(-0.131275 - 0.329 * sin (V d) + 1.915 * sin (M d) + 0.02 * sin (2 * M d) - b)| ≤ 2.403 := abs_le.2 ⟨by linarith, by linarith⟩
    have := mul_le_mul this g2.le g0.le (by norm_num)
    linarith
  have hK : K d = κ + (-22418 : ℤ) * (2 * π) := by
    unfold K J A; rw [hB, hκ, h180, hd]; push_cast; ring
  have hsK : |sin (K d)| ≤ 0.042 := by rw [hK, sin_add_int_mul_two_pi]; exact abs_sin_le_abs.trans hκ1
  have hcK : 0.999 ≤ cos (K d) := by
    rw [hK, cos_add_int_mul_two_pi]
    have := one_sub_sq_div_two_le_cos (x := κ)
    have : κ ^ 2 ≤ 0.042 ^ 2 := by rw [← sq_abs]; exact pow_le_pow_left₀ (abs_nonneg _) hκ1 2
    linarith
  obtain ⟨-, s1, s2, h12, -, d1, d2⟩ := C142_triangle d
  obtain ⟨a, a', -, -⟩ := jup_radii d
  obtain ⟨-, -, hlo, -⟩ := jup_Δsq d
  have hsψ : |sin (ψ d)| ≤ 0.011 := by
    have h1 : Δ d * |sin (ψ d)| = R d * |sin (K d)| := by
      rw [← abs_of_pos (by linarith : 0 < Δ d), ← abs_mul, s1, abs_mul, abs_of_pos (by linarith : 0 < R d)]; 
    have h2 : R d * |sin (K d)| ≤ 1.0171 * 0.042 := mul_le_mul a'.le hsK (abs_nonneg _) (by norm_num)
    have h3 : 3.9 * |sin (ψ d)| ≤ Δ d * |sin (ψ d)| := mul_le_mul_of_nonneg_right d1.le (abs_nonneg _)
    linarith
  have hψ : |ψ d| ≤ 1 * deg := by
    have := mul_abs_le_abs_sin (x := ψ d) (by linarith)
    have h4 : (0.636 : ℝ) ≤ 2 / π := by rw [le_div_iff₀ pi_pos]; linarith [pi_lt_d4]
    have := mul_le_mul_of_nonneg_right h4 (abs_nonneg (ψ d))
    linarith
  obtain ⟨p, hp⟩ : ∃ p, p = ψ d / deg := ⟨_, rfl⟩
  have hpψ : ψ d = p * deg := by rw [hp]; field_simp
  have hp1 : |p| ≤ 1 := by rw [hp, abs_div, abs_of_pos g0, div_le_one g0]; linarith
  have hp2 := abs_le.1 hp1
  have hr : 5.19 ≤ r d ∧ r d ≤ 5.2187 := by
    have c2 : cos (2 * N d) = 2 * sin ε ^ 2 - 1 := by rw [cos_two_mul, hcN]; ring
    have : sin ε ^ 2 ≤ 0.0145 ^ 2 := by nlinarith
    have := sq_nonneg (sin ε)
    unfold r; rw [c2, hcN]
    constructor <;> linarith
  have hΔ1 : 4.17 ≤ Δ d := by linarith
  have hcψ : 0.99 ≤ cos (ψ d) := by
    have := one_sub_sq_div_two_le_cos (x := ψ d)
    have h5 : |ψ d| ≤ 0.0175 := by linarith
    have : ψ d ^ 2 ≤ 0.0175 ^ 2 := by rw [← sq_abs]; exact pow_le_pow_left₀ (abs_nonneg _) h5 2
    linarith
  have hΔ2 : Δ d ≤ 4.3 := by
    have h6 : 0.98 * 0.999 ≤ R d * cos (K d) := mul_le_mul a.le hcK (by norm_num) (by linarith)
    have h7 : Δ d * 0.99 ≤ Δ d * cos (ψ d) := mul_le_mul_of_nonneg_left hcψ (by linarith)
    linarith
  have t1 := abs_le.1 (abs_sin_le_one (2 * (u1 d - u2 d)))
  have t2 := abs_le.1 (abs_sin_le_one (2 * (u2 d - u3 d)))
  have t3 := abs_le.1 (abs_sin_le_one (G d))
  have fin : ∀ (ρ U m b : ℝ), 0 ≤ ρ → ρ ≤ m → |sin U| ≤ b → m * b < 1 → |ρ * sin U| < 1 := by
    intro ρ U m b h0 hm hs hb
    rw [abs_mul, abs_of_nonneg h0]
    exact (mul_le_mul hm hs (abs_nonneg _) (h0.trans hm)).trans_lt hb
  have dg : ∀ q B : ℝ, |q| ≤ B → |q * deg| ≤ B * 0.017454 := by
    intro q B h
    rw [abs_mul, abs_of_pos g0]
    exact mul_le_mul h g2.le g0.le ((abs_nonneg _).trans h)
  refine ⟨fin _ _ 5.9301 (2.3 * 0.017454) ?_ ?_ ?_ (by norm_num), fin _ _ 9.4848 (3 * 0.017454) ?_ ?_ ?_ (by norm_num), fin _ _ 15.0099 (1.7 * 0.017454) ?_ ?_ ?_ (by norm_num)⟩
  · unfold r1; linarith [cos_le_one (2 * (u1 d - u2 d))]
  · unfold r1; linarith [neg_one_le_cos (2 * (u1 d - u2 d))]
  · refine small_off (o := (163.8069 + 203.4058646 * (d - Δ d / 173) - 5.555 + 180 * 10105033 + p - b + 0.473 * sin (2 * (u1 d - u2 d))) * deg) (k := -10105033) ?_ (dg _ _ ?_)
    · unfold U1
      have : u1 d = (163.8069 + 203.4058646 * (d - Δ d / 173) - 5.555 + p - b) * deg := by unfold u1 dd; rw [hpψ, hB]; ring
      rw [h180]; push_cast; linarith
    · rw [hd] at hΔ1 hΔ2 ⊢
      rw [hd] at t1 
      rw [abs_le]; constructor <;> linarith
  · unfold r2; linarith [cos_le_one (2 * (u2 d - u3 d))]
  · unfold r2; linarith [neg_one_le_cos (2 * (u2 d - u3 d))]
  · refine small_off (o := (358.414 + 101.2916335 * (d - Δ d / 173) - 5.555 + 180 * 5032082 + p - b + 1.065 * sin (2 * (u2 d - u3 d))) * deg) (k := -5032082) ?_ (dg _ _ ?_)
    · unfold U2
      have : u2 d = (358.414 + 101.2916335 * (d - Δ d / 173) - 5.555 + p - b) * deg := by unfold u2 dd; rw [hpψ, hB]; ring
      rw [h180]; push_cast; linarith
    · rw [hd] at hΔ1 hΔ2 ⊢
      rw [hd] at t2 
      rw [abs_le]; constructor <;> linarith
  · unfold r3; linarith [cos_le_one (G d)]
  · unfold r3; linarith [neg_one_le_cos (G d)]
  · refine small_off (o := (5.7176 + 50.234518 * (d - Δ d / 173) - 5.555 + 180 * 2495609 + p - b + 0.165 * sin (G d)) * deg) (k := -2495609) ?_ (dg _ _ ?_)
    · unfold U3
      have : u3 d = (5.7176 + 50.234518 * (d - Δ d / 173) - 5.555 + p - b) * deg := by unfold u3 dd; rw [hpψ, hB]; ring
      rw [h180]; push_cast; linarith
    · rw [hd] at hΔ1 hΔ2 ⊢
      rw [hd] at t3 
      rw [abs_le]; constructor <;> linarith

end Verif.Props
