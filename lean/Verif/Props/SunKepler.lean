import Verif.Props.Elliptic
import Verif.Props.Solar
import Verif.Props.MoonArgs
import Verif.Lemmas.LaurentShift
import Verif.Lemmas.PolyComp
import Verif.Lemmas.TrigNum
import Mathlib.Analysis.Calculus.MeanValue
import Mathlib.Analysis.SpecialFunctions.Trigonometric.ArctanDeriv
/-
C174: the equation of the centre and the distance of the Sun of package solar against Kepler's equation and package kepler.
-/
namespace Verif.Props

open Real Verif.Spec Verif.Go Verif.Model Verif.Lemmas Verif.Lemmas.PolyQ

/-! The equation of the centre to the third power of the eccentricity -/

theorem arctan_near5 {x : ℝ} (hx : |x| ≤ 1) : |arctan x - (x - x ^ 3 / 3)| ≤ |x| ^ 5 := by
  have key := (convex_Icc (-|x|) |x|).norm_image_sub_le_of_norm_hasDerivWithin_le (f := fun t => arctan t - (t - t ^ 3 / 3))
    (f' := fun t => 1 / (1 + t ^ 2) - (1 - t ^ 2)) (C := |x| ^ 4) (x := 0) (y := x) (fun t _ => by
      have h1 := (hasDerivAt_arctan t).sub ((hasDerivAt_id t).sub ((hasDerivAt_pow 3 t).div_const 3))
      refine (h1.congr_deriv ?_).hasDerivWithinAt
      push_cast; ring) (fun t ht => by
      have p : 0 < 1 + t ^ 2 := by positivity
      have e : 1 / (1 + t ^ 2) - (1 - t ^ 2) = t ^ 4 / (1 + t ^ 2) := by field_simp; ring
      rw [e, norm_div, norm_pow, Real.norm_eq_abs, Real.norm_eq_abs, abs_of_pos p]
      have h1 : |t| ≤ |x| := abs_le.2 ht
      have h2 : |t| ^ 4 ≤ |x| ^ 4 := by gcongr
      refine (div_le_self (by positivity) (by nlinarith [sq_nonneg t])).trans h2)
    ⟨by simp, by simp⟩ ⟨neg_abs_le x, le_abs_self x⟩
  simp only [arctan_zero, Real.norm_eq_abs] at key
  norm_num at key
  calc _ ≤ |x| ^ 4 * |x| := key
    _ = |x| ^ 5 := by ring

/-- The true anomaly less the eccentric anomaly. -/
theorem true_arctan (E e b : ℝ) (h0 : 0 ≤ e) (h1 : e < 1) (hb0 : 0 ≤ b) (hb1 : b < 1) (hb : 2 * b = e * (1 + b ^ 2)) (hE : cos (E / 2) ≠ 0) :
    ∃ k : ℤ, Kepler.TrueAnom E e = E + 2 * arctan (b * sin E / (1 - b * cos E)) + k * (2 * π) := by
  obtain ⟨c, s⟩ := true_radius_all E e 1 h0 h1 hE
  unfold Kepler.Radius at c s
  have c1 := cos_le_one E
  have c0 := neg_one_le_cos E
  have r0 : 0 < 1 - e * cos E := by nlinarith
  have d0 : 0 < 1 - b * cos E := by nlinarith
  have sq := sin_sq_add_cos_sq E
  set x := b * sin E / (1 - b * cos E) with hx
  have p : 0 < 1 + x ^ 2 := by positivity
  have hxd : x * (1 - b * cos E) = b * sin E := by rw [hx]; field_simp
  have hcos : cos (2 * arctan x) = (1 - x ^ 2) / (1 + x ^ 2) := by
    rw [cos_two_mul, cos_sq_arctan]; field_simp; ring
  have hsin : sin (2 * arctan x) = 2 * x / (1 + x ^ 2) := by
    rw [sin_two_mul, ← tan_mul_cos (cos_arctan_pos x).ne', tan_arctan, mul_assoc, mul_assoc, ← pow_two, cos_sq_arctan]; field_simp
  have he : √(1 - e ^ 2) = (1 - b ^ 2) / (1 + b ^ 2) := by
    have pb : 0 < 1 + b ^ 2 := by positivity
    have : e = 2 * b / (1 + b ^ 2) := by field_simp; linarith
    rw [show 1 - e ^ 2 = ((1 - b ^ 2) / (1 + b ^ 2)) ^ 2 by rw [this]; field_simp; ring, sqrt_sq]
    apply div_nonneg _ pb.le
    nlinarith
  have pb : 0 < 1 + b ^ 2 := by positivity
  have heq : e = 2 * b / (1 + b ^ 2) := by field_simp; linarith
  have N : (1 + x ^ 2) * (1 - b * cos E) ^ 2 = 1 - 2 * b * cos E + b ^ 2 := by
    have : x ^ 2 * (1 - b * cos E) ^ 2 = (b * sin E) ^ 2 := by rw [← hxd]; ring
    linear_combination this + b ^ 2 * sq
  have M : 0 < 1 - 2 * b * cos E + b ^ 2 := by rw [← N]; positivity
  have er : 1 - e * cos E = (1 - 2 * b * cos E + b ^ 2) / (1 + b ^ 2) := by rw [heq]; field_simp; ring
  have a1 : (1 - x ^ 2) / (1 + x ^ 2) = ((1 - b * cos E) ^ 2 - (b * sin E) ^ 2) / (1 - 2 * b * cos E + b ^ 2) := by
    rw [← N, ← hxd]; field_simp
  have a2 : 2 * x / (1 + x ^ 2) = 2 * (b * sin E) * (1 - b * cos E) / (1 - 2 * b * cos E + b ^ 2) := by
    rw [← N, ← hxd]; field_simp
  generalize hW : 1 - 2 * b * cos E + b ^ 2 = W at *
  have gc : cos (Kepler.TrueAnom E e) = (cos E - e) / (1 - e * cos E) := by
    rw [eq_div_iff r0.ne']; linarith
  have gs : sin (Kepler.TrueAnom E e) = √(1 - e ^ 2) * sin E / (1 - e * cos E) := by
    rw [eq_div_iff r0.ne']; linarith
  have W0 := M.ne'
  apply angle_of_cos_sin
  · rw [cos_add, hcos, hsin, a1, a2, gc, er, heq]
    field_simp
    linear_combination (2 * b - b ^ 2 * cos E) * sq
  · rw [sin_add, hcos, hsin, a1, a2, gs, er, he]
    field_simp
    linear_combination (b ^ 2 * sin E) * sq

/-- Powers of the parameter `b`, which is about half the eccentricity. -/
theorem half_ecc {e : ℝ} (h0 : 0 ≤ e) (h1 : e ≤ 0.02) : ∃ b : ℝ, 0 ≤ b ∧ b ≤ 0.501 * e ∧ 2 * b = e * (1 + b ^ 2) ∧
    |b - e / 2 - e ^ 3 / 8| ≤ 0.01 * e ^ 4 ∧ |b ^ 2 - e ^ 2 / 4| ≤ 0.15 * e ^ 4 ∧ |b ^ 3 - e ^ 3 / 8| ≤ 0.01 * e ^ 4 := by
  have hw : 0 ≤ 1 - e ^ 2 := by nlinarith
  set w := √(1 - e ^ 2) with hwd
  have w2 : w ^ 2 = 1 - e ^ 2 := sq_sqrt hw
  have w0 : 0 ≤ w := sqrt_nonneg _
  have wl : 0.999 ≤ w := le_sqrt_of_sq_le (by nlinarith)
  have wp : 0 < 1 + w := by linarith
  obtain ⟨b, hb⟩ : ∃ b, b = e / (1 + w) := ⟨_, rfl⟩
  have hbw : b * (1 + w) = e := by rw [hb]; field_simp
  have b0 : 0 ≤ b := by rw [hb]; positivity
  have b1 : b ≤ 0.501 * e := by nlinarith
  have b2 : 2 * b = e * (1 + b ^ 2) := by
    rw [hb]; field_simp; nlinarith
  have e2 : 0 ≤ e ^ 2 := by positivity
  have bb : b ^ 2 ≤ 0.252 * e ^ 2 := by
    have := pow_le_pow_left₀ b0 b1 2
    nlinarith
  have g0 : 0 ≤ b - e / 2 := by nlinarith [mul_nonneg h0 (sq_nonneg b)]
  have g1 : b - e / 2 ≤ 0.127 * e ^ 3 := by
    have : b - e / 2 = e * b ^ 2 / 2 := by linarith
    rw [this]
    have := mul_le_mul_of_nonneg_left bb h0
    nlinarith
  have k2 : |b ^ 2 - e ^ 2 / 4| ≤ 0.15 * e ^ 4 := by
    rw [show b ^ 2 - e ^ 2 / 4 = (b - e / 2) * (b + e / 2) by ring, abs_of_nonneg (by positivity)]
    calc _ ≤ (0.127 * e ^ 3) * (0.501 * e + e / 2) := mul_le_mul g1 (by linarith) (by positivity) (by positivity)
      _ ≤ _ := by have : 0 ≤ e ^ 4 := by positivity
                  nlinarith
  refine ⟨b, b0, b1, b2, ?_, k2, ?_⟩
  · have : b - e / 2 - e ^ 3 / 8 = e / 2 * (b ^ 2 - e ^ 2 / 4) := by linear_combination b2 / 2
    rw [this, abs_mul, abs_of_nonneg (by positivity)]
    have h4 : 0 ≤ e ^ 4 := by positivity
    calc _ ≤ (0.01 : ℝ) * (0.15 * e ^ 4) := mul_le_mul (by linarith) k2 (abs_nonneg _) (by norm_num)
      _ ≤ _ := by nlinarith
  · have h4 : 0 ≤ e ^ 4 := by positivity
    rw [show b ^ 3 - e ^ 3 / 8 = (b - e / 2) * (b ^ 2 + b * (e / 2) + e ^ 2 / 4) by ring, abs_of_nonneg (by positivity)]
    have m : b ^ 2 + b * (e / 2) + e ^ 2 / 4 ≤ 0.76 * e ^ 2 := by nlinarith
    calc _ ≤ (0.127 * e ^ 3) * (0.76 * e ^ 2) := mul_le_mul g1 m (by positivity) (by positivity)
      _ = 0.09652 * e * e ^ 4 := by ring
      _ ≤ _ := mul_le_mul_of_nonneg_right (by linarith) h4

/-- The arc tangent in the true anomaly. -/
theorem true_series {b s c : ℝ} (b0 : 0 ≤ b) (b1 : b ≤ 0.011) (hs : |s| ≤ 1) (hc : |c| ≤ 1) :
    |arctan (b * s / (1 - b * c)) - (b * s + b ^ 2 * (s * c) + b ^ 3 * (s * c ^ 2) - b ^ 3 * s ^ 3 / 3)| ≤ 2.2 * b ^ 4 := by
  have h4 : 0 ≤ b ^ 4 := by positivity
  obtain ⟨c0, c1⟩ := abs_le.1 hc
  have d0 : 0.989 ≤ 1 - b * c := by nlinarith
  have dp : 0 < 1 - b * c := by linarith
  obtain ⟨x, hx⟩ : ∃ x, x = b * s / (1 - b * c) := ⟨_, rfl⟩
  rw [← hx]
  have hxd : x * (1 - b * c) = b * s := by rw [hx]; field_simp
  have ax : |x| ≤ 1.012 * b := by
    rw [hx, abs_div, abs_mul, abs_of_nonneg b0, abs_of_pos dp, div_le_iff₀ dp]
    have := mul_le_mul_of_nonneg_left hs b0
    nlinarith
  have bb : ∀ u : ℝ, |u| ≤ 1 → ∀ n : ℕ, |b ^ n * u| ≤ b ^ n := fun u hu n => by
    rw [abs_mul, abs_of_nonneg (by positivity)]
    exact mul_le_of_le_one_right (by positivity) hu
  have r4 : |x - (b * s + b ^ 2 * (s * c) + b ^ 3 * (s * c ^ 2))| ≤ 1.012 * b ^ 4 := by
    have : x - (b * s + b ^ 2 * (s * c) + b ^ 3 * (s * c ^ 2)) = x * (b ^ 3 * c ^ 3) := by
      linear_combination (1 + b * c + b ^ 2 * c ^ 2) * hxd
    rw [this, abs_mul]
    have h3 := bb (c ^ 3) (by rw [abs_pow]; exact pow_le_one₀ (abs_nonneg _) hc) 3
    calc _ ≤ (1.012 * b) * b ^ 3 := mul_le_mul ax h3 (abs_nonneg _) (by positivity)
      _ = _ := by ring
  have y : |x - b * s| ≤ 1.012 * b ^ 2 := by
    have : x - b * s = x * (b * c) := by linear_combination hxd
    rw [this, abs_mul]
    have h1 := bb c hc 1
    rw [pow_one] at h1
    calc _ ≤ (1.012 * b) * b := mul_le_mul ax h1 (abs_nonneg _) (by positivity)
      _ = _ := by ring
  have r6 : |x ^ 3 - b ^ 3 * s ^ 3| ≤ 3.12 * b ^ 4 := by
    have : x ^ 3 - b ^ 3 * s ^ 3 = (x - b * s) * (x ^ 2 + x * (b * s) + b ^ 2 * s ^ 2) := by ring
    rw [this, abs_mul]
    have a2 : |b * s| ≤ b := by have := bb s hs 1; rwa [pow_one] at this
    have m : |x ^ 2 + x * (b * s) + b ^ 2 * s ^ 2| ≤ 3.08 * b ^ 2 := by
      refine (abs_add_three _ _ _).trans ?_
      rw [abs_pow, abs_mul]
      have u1 : |x| ^ 2 ≤ (1.012 * b) ^ 2 := by gcongr
      have u2 : |x| * |b * s| ≤ (1.012 * b) * b := mul_le_mul ax a2 (abs_nonneg _) (by positivity)
      have u3 := bb (s ^ 2) (by rw [abs_pow]; exact pow_le_one₀ (abs_nonneg _) hs) 2
      nlinarith [sq_nonneg b]
    calc _ ≤ (1.012 * b ^ 2) * (3.08 * b ^ 2) := mul_le_mul y m (abs_nonneg _) (by positivity)
      _ = 3.11696 * b ^ 4 := by ring
      _ ≤ _ := by nlinarith
  have r5 : |arctan x - (x - x ^ 3 / 3)| ≤ 0.02 * b ^ 4 := by
    refine (arctan_near5 (ax.trans (by linarith))).trans ?_
    have := pow_le_pow_left₀ (abs_nonneg x) ax 5
    calc _ ≤ (1.012 * b) ^ 5 := this
      _ = 1.012 ^ 5 * b * b ^ 4 := by ring
      _ ≤ _ := mul_le_mul_of_nonneg_right (by norm_num at b1 ⊢; linarith) h4
  generalize arctan x = t at *
  rw [abs_le] at *
  constructor <;> nlinarith [r4.1, r4.2, r5.1, r5.2, r6.1, r6.2]

/-- The powers of the eccentricity up to the third cancel. -/
theorem centre_identity {E M e b t s c S1 S2 S3 p : ℝ} (c2 : c ^ 2 = 1 - s ^ 2) (hE : E = M + e * s) :
    E + 2 * t + p - M - ((2 * e - e ^ 3 / 4) * S1 + 5 / 4 * e ^ 2 * S2 + 13 / 12 * e ^ 3 * S3) - p =
      2 * (t - (b * s + b ^ 2 * (s * c) + b ^ 3 * (s * c ^ 2) - b ^ 3 * s ^ 3 / 3))
      + 2 * ((b - e / 2 - e ^ 3 / 8) * s) + 2 * ((b ^ 2 - e ^ 2 / 4) * (s * c)) + 2 * ((b ^ 3 - e ^ 3 / 8) * (s * c ^ 2))
      - 2 / 3 * ((b ^ 3 - e ^ 3 / 8) * s ^ 3)
      - 2 * e * (S1 - (s - e * s * c - e ^ 2 * s ^ 3 / 2)) + e ^ 3 / 4 * (S1 - s)
      - 5 / 4 * e ^ 2 * (S2 - (2 * (s * c) - 2 * e * s * (c ^ 2 - s ^ 2)))
      - 13 / 12 * e ^ 3 * (S3 - (3 * s - 4 * s ^ 3)) := by
  rw [c2, hE]; ring

set_option maxHeartbeats 1000000 in
/-- The equation of the centre to the third power of the eccentricity. -/
theorem equation_centre {E e M : ℝ} (h0 : 0 ≤ e) (h1 : e ≤ 0.02) (hE : cos (E / 2) ≠ 0) (hM : E - e * sin E = M) :
    ∃ k : ℤ, |Kepler.TrueAnom E e - M - ((2 * e - e ^ 3 / 4) * sin M + 5 / 4 * e ^ 2 * sin (M * 2) + 13 / 12 * e ^ 3 * sin (M * 3)) - k * (2 * π)| ≤ 7.3 * e ^ 4 := by
  obtain ⟨b, b0, b1, hb, g1, g2, g3⟩ := half_ecc h0 h1
  obtain ⟨k, hk⟩ := true_arctan E e b h0 (by linarith) b0 (by linarith) hb hE
  refine ⟨k, ?_⟩
  have q0 : 0 ≤ e ^ 4 := by positivity
  have A := true_series (s := sin E) (c := cos E) b0 (by linarith) (abs_sin_le_one E) (abs_cos_le_one E)
  have b4 : 2.2 * b ^ 4 ≤ 0.14 * e ^ 4 := by
    have := pow_le_pow_left₀ b0 b1 4
    nlinarith
  replace A := A.trans b4
  have sq := sin_sq_add_cos_sq E
  have hes : |e * sin E| ≤ e := by
    rw [abs_mul, abs_of_nonneg h0]; exact mul_le_of_le_one_right h0 (abs_sin_le_one E)
  have hes' : |-(e * sin E)| ≤ e := by rw [abs_neg]; exact hes
  -- sines of the mean anomaly
  have m1 : M = E + -(e * sin E) := by rw [← hM]; ring
  have t1 := Laurent.sin_taylor2 E (h := -(e * sin E)) (hes'.trans (by linarith))
  rw [← m1] at t1
  have p1 : |2 * e * (sin M - (sin E - e * sin E * cos E - e ^ 2 * sin E ^ 3 / 2))| ≤ 0.4167 * e ^ 4 := by
    have u : |-(e * sin E)| ^ 3 ≤ e ^ 3 := by gcongr
    rw [abs_mul, abs_of_nonneg (by positivity)]
    have v : |sin M - (sin E - e * sin E * cos E - e ^ 2 * sin E ^ 3 / 2)| ≤ 5 / 24 * e ^ 3 := by
      refine le_trans (le_of_eq ?_) (t1.trans (by linarith))
      congr 1; ring
    have := mul_le_mul_of_nonneg_left v (by positivity : 0 ≤ 2 * e)
    nlinarith
  have p2 : |e ^ 3 / 4 * (sin M - sin E)| ≤ 0.25 * e ^ 4 := by
    have v : |sin M - sin E| ≤ e := by
      rw [sin_sub_sin, abs_mul, abs_mul, abs_two]
      have a1 := abs_sin_le_abs (x := (M - E) / 2)
      have a2 := abs_cos_le_one ((M + E) / 2)
      have a3 : |(M - E) / 2| ≤ e / 2 := by
        rw [abs_div, abs_two, show M - E = -(e * sin E) by linarith]; linarith
      have := mul_le_mul (a1.trans a3) a2 (abs_nonneg _) (by positivity)
      linarith
    rw [abs_mul, abs_of_nonneg (by positivity)]
    have := mul_le_mul_of_nonneg_left v (by positivity : 0 ≤ e ^ 3 / 4)
    nlinarith
  have p3 : |5 / 4 * e ^ 2 * (sin (M * 2) - (2 * (sin E * cos E) - 2 * e * sin E * (cos E ^ 2 - sin E ^ 2)))| ≤ 2.6 * e ^ 4 := by
    have t2 := Laurent.sin_taylor2 (2 * E) (h := -(2 * (e * sin E))) (by rw [abs_neg, abs_mul, abs_two]; linarith)
    rw [show 2 * E + -(2 * (e * sin E)) = M * 2 by rw [m1]; ring, sin_two_mul, cos_two_mul'] at t2
    have w : |-(2 * (e * sin E))| ≤ 2 * e := by rw [abs_neg, abs_mul, abs_two]; linarith
    have w3 : |-(2 * (e * sin E))| ^ 3 ≤ (2 * e) ^ 3 := by gcongr
    have w2 : |(-(2 * (e * sin E))) ^ 2 / 2 * (2 * sin E * cos E)| ≤ 2 * e ^ 2 := by
      have z : |2 * sin E * cos E| ≤ 1 := by rw [← sin_two_mul]; exact abs_sin_le_one _
      have w2 : |-(2 * (e * sin E))| ^ 2 ≤ (2 * e) ^ 2 := by gcongr
      rw [abs_mul, abs_div, abs_pow, abs_two]
      have := mul_le_mul (div_le_div_of_nonneg_right w2 (by norm_num : (0:ℝ) ≤ 2)) z (abs_nonneg _) (by positivity)
      linarith
    have v : |sin (M * 2) - (2 * (sin E * cos E) - 2 * e * sin E * (cos E ^ 2 - sin E ^ 2))| ≤ 2 * e ^ 2 + 5 / 3 * e ^ 3 := by
      have a : sin (M * 2) - (2 * (sin E * cos E) - 2 * e * sin E * (cos E ^ 2 - sin E ^ 2)) =
        (sin (M * 2) - (2 * sin E * cos E + -(2 * (e * sin E)) * (cos E ^ 2 - sin E ^ 2) - (-(2 * (e * sin E))) ^ 2 / 2 * (2 * sin E * cos E)))
          - (-(2 * (e * sin E))) ^ 2 / 2 * (2 * sin E * cos E) := by ring
      rw [a]
      refine (abs_sub _ _).trans ?_
      nlinarith
    rw [abs_mul, abs_of_nonneg (by positivity)]
    have := mul_le_mul_of_nonneg_left v (by positivity : 0 ≤ 5 / 4 * e ^ 2)
    have q5 : e * e ^ 4 ≤ 0.02 * e ^ 4 := mul_le_mul_of_nonneg_right h1 q0
    nlinarith
  have p4 : |13 / 12 * e ^ 3 * (sin (M * 3) - (3 * sin E - 4 * sin E ^ 3))| ≤ 3.26 * e ^ 4 := by
    have v : |sin (M * 3) - (3 * sin E - 4 * sin E ^ 3)| ≤ 3 * e := by
      rw [← sin_three_mul, sin_sub_sin, abs_mul, abs_mul, abs_two]
      have a1 := abs_sin_le_abs (x := (M * 3 - 3 * E) / 2)
      have a2 := abs_cos_le_one ((M * 3 + 3 * E) / 2)
      have a3 : |(M * 3 - 3 * E) / 2| ≤ 3 * e / 2 := by
        rw [show (M * 3 - 3 * E) / 2 = 3 / 2 * -(e * sin E) by linarith, abs_mul, abs_of_nonneg (by norm_num : (0:ℝ) ≤ 3 / 2)]; linarith
      have := mul_le_mul (a1.trans a3) a2 (abs_nonneg _) (by positivity)
      linarith
    rw [abs_mul, abs_of_nonneg (by positivity)]
    have := mul_le_mul_of_nonneg_left v (by positivity : 0 ≤ 13 / 12 * e ^ 3)
    nlinarith
  have bd : ∀ {x u B : ℝ}, |x| ≤ B → |u| ≤ 1 → |x * u| ≤ B := fun {x u B} hx hu => by
    rw [abs_mul]; exact (mul_le_of_le_one_right (abs_nonneg _) hu).trans hx
  have hs := abs_sin_le_one E
  have hc := abs_cos_le_one E
  have k1 := bd g1 hs
  have k2 := bd g2 (show |sin E * cos E| ≤ 1 by rw [abs_mul]; exact mul_le_one₀ hs (abs_nonneg _) hc)
  have k3 := bd g3 (show |sin E * cos E ^ 2| ≤ 1 by
    rw [abs_mul, abs_pow]; exact mul_le_one₀ hs (by positivity) (pow_le_one₀ (abs_nonneg _) hc))
  have k4 := bd g3 (show |sin E ^ 3| ≤ 1 by rw [abs_pow]; exact pow_le_one₀ (abs_nonneg _) hs)
  rw [hk]
  generalize arctan (b * sin E / (1 - b * cos E)) = t at *
  have key : E + 2 * t + k * (2 * π) - M - ((2 * e - e ^ 3 / 4) * sin M + 5 / 4 * e ^ 2 * sin (M * 2) + 13 / 12 * e ^ 3 * sin (M * 3)) - k * (2 * π) =
      2 * (t - (b * sin E + b ^ 2 * (sin E * cos E) + b ^ 3 * (sin E * cos E ^ 2) - b ^ 3 * sin E ^ 3 / 3))
      + 2 * ((b - e / 2 - e ^ 3 / 8) * sin E) + 2 * ((b ^ 2 - e ^ 2 / 4) * (sin E * cos E)) + 2 * ((b ^ 3 - e ^ 3 / 8) * (sin E * cos E ^ 2))
      - 2 / 3 * ((b ^ 3 - e ^ 3 / 8) * sin E ^ 3)
      - 2 * e * (sin M - (sin E - e * sin E * cos E - e ^ 2 * sin E ^ 3 / 2)) + e ^ 3 / 4 * (sin M - sin E)
      - 5 / 4 * e ^ 2 * (sin (M * 2) - (2 * (sin E * cos E) - 2 * e * sin E * (cos E ^ 2 - sin E ^ 2)))
      - 13 / 12 * e ^ 3 * (sin (M * 3) - (3 * sin E - 4 * sin E ^ 3)) := by
    exact centre_identity (by linarith only [sq]) (by linarith only [hM])
  rw [key]
  clear key hk
  rw [abs_le] at A k1 k2 k3 k4 p1 p2 p3 p4 ⊢
  constructor <;> linarith [A.1, A.2, k1.1, k1.2, k2.1, k2.2, k3.1, k3.2, k4.1, k4.2, p1.1, p1.2, p2.1, p2.2, p3.1, p3.2, p4.1, p4.2]

/-! The series of package solar -/

theorem ecc_range {T : ℝ} (hT : |T| ≤ 10) : 0.01627 ≤ Solar.Eccentricity T ∧ Solar.Eccentricity T ≤ 0.01712 := by
  obtain ⟨a, b⟩ := abs_le.1 hT
  have t2 : T * T ≤ 100 := by nlinarith
  have t3 : 0 ≤ T * T := mul_self_nonneg T
  unfold Solar.Eccentricity
  simp only [hornerR, List.foldr_cons, List.foldr_nil]
  norm_num at *
  constructor <;> nlinarith

/-- The coefficients of `center` against the powers of the eccentricity. -/
theorem centre_coeffs {T e : ℝ} (hT : |T| ≤ 10) (he : e = 0.016708634 - 0.000042037 * T - 0.0000001267 * T ^ 2) :
    |2 * e - e ^ 3 / 4 - (1.914602 - 0.004817 * T - 0.000014 * T ^ 2) * deg| ≤ 1e-6 ∧
    |5 / 4 * e ^ 2 - (0.019993 - 0.000101 * T) * deg| ≤ 7e-7 ∧
    |13 / 12 * e ^ 3 - 0.000289 * deg| ≤ 4.1e-7 := by
  obtain ⟨a, b⟩ := abs_le.1 hT
  have t2 : T ^ 2 ≤ 100 := by nlinarith
  have t3 : 0 ≤ T ^ 2 := sq_nonneg T
  obtain ⟨d1, d2⟩ := deg_num
  obtain ⟨δ, hδ⟩ : ∃ δ, deg = 0.01745329251 + δ := ⟨deg - 0.01745329251, by ring⟩
  rw [hδ] at d1 d2 ⊢
  have δ0 : 0 ≤ δ := by linarith
  have δ1 : δ ≤ 1e-11 := by norm_num at d2 ⊢; linarith
  obtain ⟨u, hu⟩ : ∃ u, u = e - 0.016708634 := ⟨_, rfl⟩
  have eu : e = 0.016708634 + u := by linarith
  have ul : -0.00044 ≤ u := by norm_num at *; nlinarith
  have uu : u ≤ 0.00041 := by norm_num at *; nlinarith
  have v : -0.00002 ≤ u + 0.000042037 * T ∧ u + 0.000042037 * T ≤ 0 := by
    constructor <;> (norm_num at *; nlinarith)
  have u2 : u ^ 2 ≤ 2e-7 := by norm_num at *; nlinarith
  have u20 := sq_nonneg u
  have u3 : |u ^ 3| ≤ 1e-10 := by
    rw [abs_pow]
    have : |u| ≤ 0.00044 := abs_le.2 ⟨ul, by linarith⟩
    have := pow_le_pow_left₀ (abs_nonneg u) this 3
    norm_num at *; linarith
  obtain ⟨u3a, u3b⟩ := abs_le.1 u3
  have s3 : e ^ 3 = 0.016708634 ^ 3 + 3 * 0.016708634 ^ 2 * u + 3 * 0.016708634 * u ^ 2 + u ^ 3 := by rw [eu]; ring
  have s2 : e ^ 2 = 0.016708634 ^ 2 + 2 * 0.016708634 * u + u ^ 2 := by rw [eu]; ring
  have q1 : |(1.914602 - 0.004817 * T - 0.000014 * T ^ 2) * δ| ≤ 3e-11 := by
    rw [abs_mul, abs_of_nonneg δ0]
    have : |1.914602 - 0.004817 * T - 0.000014 * T ^ 2| ≤ 3 := by rw [abs_le]; constructor <;> (norm_num; nlinarith)
    have := mul_le_mul this δ1 δ0 (by norm_num)
    norm_num at *; linarith
  have q2 : |(0.019993 - 0.000101 * T) * δ| ≤ 1e-11 := by
    rw [abs_mul, abs_of_nonneg δ0]
    have : |0.019993 - 0.000101 * T| ≤ 1 := by rw [abs_le]; constructor <;> (norm_num; linarith)
    have := mul_le_mul this δ1 δ0 (by norm_num)
    norm_num at *; linarith
  obtain ⟨q1a, q1b⟩ := abs_le.1 q1
  obtain ⟨q2a, q2b⟩ := abs_le.1 q2
  rw [mul_add, mul_add, mul_add, s3, s2, abs_le, abs_le, abs_le]
  have uT : u = -0.000042037 * T - 0.0000001267 * T ^ 2 := by rw [hu, he]; ring
  generalize (1.914602 - 0.004817 * T - 0.000014 * T ^ 2) * δ = x1 at *
  generalize (0.019993 - 0.000101 * T) * δ = x2 at *
  generalize u ^ 3 = w3 at *
  generalize u ^ 2 = w2 at *
  generalize T ^ 2 = T2 at *
  clear * - a b t2 t3 δ0 δ1 ul uu v u2 u20 u3a u3b q1a q1b q2a q2b uT eu
  norm_num at *
  refine ⟨⟨?_, ?_⟩, ⟨?_, ?_⟩, ⟨?_, ?_⟩⟩ <;> linarith

/-- C174: the anomaly that package solar gives for the Sun, from the series for the equation of the centre, is the true anomaly that package kepler finds from a solution of Kepler's equation for the same mean anomaly and eccentricity, within 0.6 arc seconds for ten centuries either side of 2000. -/
theorem C174_anomaly {T E : ℝ} (hT : |T| ≤ 10) (hE : cos (E / 2) ≠ 0) (hM : E - Solar.Eccentricity T * sin E = Solar.MeanAnomaly T) :
    ∃ k : ℤ, |Kepler.TrueAnom E (Solar.Eccentricity T) - (Solar.TrueLon T).2 - k * (2 * π)| ≤ 2.8e-6 := by
  obtain ⟨e0, e1⟩ := ecc_range hT
  obtain ⟨k, hk⟩ := equation_centre (by linarith) (by linarith) hE hM
  obtain ⟨-, -, m, hm⟩ := mod1_eq (Solar.MeanAnomaly T + Solar.center T)
  have he : Solar.Eccentricity T = 0.016708634 - 0.000042037 * T - 0.0000001267 * T ^ 2 := by
    unfold Solar.Eccentricity; simp only [hornerR, List.foldr_cons, List.foldr_nil]; ring
  obtain ⟨c1, c2, c3⟩ := centre_coeffs hT he
  refine ⟨k + m, ?_⟩
  have hc : Solar.center T = (1.914602 - 0.004817 * T - 0.000014 * T ^ 2) * deg * sin (Solar.MeanAnomaly T)
      + (0.019993 - 0.000101 * T) * deg * sin (Solar.MeanAnomaly T * 2) + 0.000289 * deg * sin (Solar.MeanAnomaly T * 3) := by
    unfold Solar.center; simp only [hornerR, List.foldr_cons, List.foldr_nil]; ring
  have bd : ∀ {x u B : ℝ}, |x| ≤ B → |u| ≤ 1 → |x * u| ≤ B := fun {x u B} hx hu => by
    rw [abs_mul]; exact (mul_le_of_le_one_right (abs_nonneg _) hu).trans hx
  have k1 := bd c1 (abs_sin_le_one (Solar.MeanAnomaly T))
  have k2 := bd c2 (abs_sin_le_one (Solar.MeanAnomaly T * 2))
  have k3 := bd c3 (abs_sin_le_one (Solar.MeanAnomaly T * 3))
  have k4 : 7.3 * Solar.Eccentricity T ^ 4 ≤ 6.4e-7 := by
    have := pow_le_pow_left₀ (by linarith) e1 4
    norm_num at *; linarith
  replace hk := hk.trans k4
  have hm' : (Solar.TrueLon T).2 = Solar.MeanAnomaly T + Solar.center T - m * (2 * π) := by
    rw [show (Solar.TrueLon T).2 = mod1 (Solar.MeanAnomaly T + Solar.center T) from rfl]; linarith
  rw [hm', hc]
  push_cast
  generalize Solar.Eccentricity T = e at *
  generalize Solar.MeanAnomaly T = M at *
  generalize Kepler.TrueAnom E e = ν at *
  rw [abs_le] at hk k1 k2 k3 ⊢
  clear * - hk k1 k2 k3
  norm_num at *
  constructor <;> linarith [hk.1, hk.2, k1.1, k1.2, k2.1, k2.2, k3.1, k3.2]

/-- C174: the distance of the Sun of package solar is the radius vector of package kepler for the same orbit, within 5e-8 astronomical units. -/
theorem C174_radius {T E : ℝ} (hT : |T| ≤ 10) (hE : cos (E / 2) ≠ 0) (hM : E - Solar.Eccentricity T * sin E = Solar.MeanAnomaly T) :
    |Solar.Radius T - Kepler.Radius E (Solar.Eccentricity T) 1.000001018| ≤ 5e-8 := by
  obtain ⟨k, hk⟩ := C174_anomaly hT hE hM
  obtain ⟨e0, e1⟩ := ecc_range hT
  obtain ⟨hc, -⟩ := true_radius_all E (Solar.Eccentricity T) 1 (by linarith) (by linarith) hE
  have dc : |cos (Kepler.TrueAnom E (Solar.Eccentricity T)) - cos (Solar.TrueLon T).2| ≤ 2.8e-6 := by
    rw [← cos_add_int_mul_two_pi (Solar.TrueLon T).2 k, cos_sub_cos, abs_mul, abs_mul, abs_neg, abs_two]
    have a1 := abs_sin_le_one ((Kepler.TrueAnom E (Solar.Eccentricity T) + ((Solar.TrueLon T).2 + k * (2 * π))) / 2)
    have a2 := abs_sin_le_abs (x := (Kepler.TrueAnom E (Solar.Eccentricity T) - ((Solar.TrueLon T).2 + k * (2 * π))) / 2)
    rw [abs_div, abs_two, ← sub_sub] at a2
    rw [← sub_sub]
    have := mul_le_mul a1 a2 (abs_nonneg _) (by norm_num)
    linarith
  unfold Solar.Radius
  unfold Kepler.Radius at *
  simp only
  generalize Solar.Eccentricity T = e at *
  generalize Kepler.TrueAnom E e = ν at *
  have x0 := neg_one_le_cos (Solar.TrueLon T).2
  have x1 := cos_le_one (Solar.TrueLon T).2
  have y0 := neg_one_le_cos E
  have y1 := cos_le_one E
  generalize cos (Solar.TrueLon T).2 = x at *
  generalize cos E = y at *
  generalize cos ν = z at *
  clear hE hM hk
  have D : 0.982 ≤ 1 + e * x := by nlinarith
  have R1 : 1 - e * y ≤ 1.0172 := by nlinarith
  have R0 : 0 ≤ 1 - e * y := by nlinarith
  have id : 1.000001018 * (1 - e * e) / (1 + e * x) - 1.000001018 * (1 - e * y) = 1.000001018 * (1 - e * y) * e * (z - x) / (1 + e * x) := by
    field_simp
    linear_combination (-e) * hc
  rw [id, abs_div, abs_of_pos (by linarith : 0 < 1 + e * x), div_le_iff₀ (by linarith), abs_mul, abs_of_nonneg (by positivity)]
  have m1 : 1.000001018 * (1 - e * y) * e ≤ 0.01742 := by
    have : (1 - e * y) * e ≤ 1.0172 * 0.01712 := mul_le_mul R1 e1 (by linarith) (by norm_num)
    norm_num at *; linarith
  have m2 := mul_le_mul m1 dc (abs_nonneg _) (by norm_num)
  norm_num at *
  linarith

/-- The hypotheses are met: at any time there is a solution of Kepler's equation, and at the perihelion of the mean orbit it is 0. -/
example : ∃ T : ℝ, |T| ≤ 10 ∧ cos ((0 : ℝ) / 2) ≠ 0 ∧ (0 : ℝ) - Solar.Eccentricity T * sin 0 = Solar.MeanAnomaly T := by
  have hc : Continuous Solar.MeanAnomaly := by
    unfold Solar.MeanAnomaly
    simp only [hornerR, List.foldr_cons, List.foldr_nil]
    fun_prop
  have hd : 0 < deg := by unfold deg; positivity
  obtain ⟨T, ⟨h1, h2⟩, h3⟩ := intermediate_value_Icc (by norm_num : (-0.01 : ℝ) ≤ 0) hc.continuousOn
    (show (0 : ℝ) ∈ _ from by
      constructor
      · unfold Solar.MeanAnomaly
        simp only [hornerR, List.foldr_cons, List.foldr_nil]
        norm_num
        linarith
      · unfold Solar.MeanAnomaly
        simp only [hornerR, List.foldr_cons, List.foldr_nil]
        norm_num
        linarith)
  refine ⟨T, abs_le.2 ⟨by norm_num at h1; linarith, by linarith⟩, by simp, by simp [h3]⟩

end Verif.Props
