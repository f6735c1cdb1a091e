import Mathlib.Analysis.Analytic.Binomial
import Mathlib.MeasureTheory.Integral.DominatedConvergence
import Mathlib.Analysis.SpecialFunctions.Integrals.Basic
import Mathlib.Tactic
import Verif.Spec.Orbit

/-! Parseval's identity for `sqrt (1 - m e^{2iθ})`: the Gauss–Kummer series. -/

namespace Verif.Lemmas
open Real MeasureTheory

/-- The binomial coefficients `1/2 over n`, by their recurrence. -/
noncomputable def halfChoose : ℕ → ℝ
  | 0 => 1
  | n + 1 => halfChoose n * ((1 / 2 - n) / (n + 1))

theorem halfChoose_eq (n : ℕ) : Ring.choose (1 / 2 : ℂ) n = (halfChoose n : ℂ) := by
  have key : ∀ n : ℕ, (descPochhammer ℤ n).smeval (1 / 2 : ℂ) = (n.factorial : ℂ) * (halfChoose n : ℂ) := by
    intro n
    induction n with
    | zero => simp [halfChoose]
    | succ n ih =>
      have hn : (n : ℂ) + 1 ≠ 0 := by exact_mod_cast Nat.succ_ne_zero n
      rw [descPochhammer_succ_right, Polynomial.smeval_mul, ih]
      simp only [halfChoose, Nat.factorial_succ, Polynomial.smeval_sub, Polynomial.smeval_X,
        Polynomial.smeval_natCast]
      push_cast
      field_simp
      simp
      try ring
  have h := Ring.descPochhammer_eq_factorial_smul_choose (1 / 2 : ℂ) n
  rw [key n, nsmul_eq_mul] at h
  exact (mul_left_cancel₀ (by exact_mod_cast n.factorial_ne_zero) h).symm

theorem hasSum_sqrt {z : ℂ} (hz : ‖z‖ < 1) :
    HasSum (fun n => (halfChoose n : ℂ) * z ^ n) ((1 + z) ^ (1 / 2 : ℂ)) := by
  have h := (Complex.one_add_cpow_hasFPowerSeriesOnBall_zero (a := (1 / 2 : ℂ))).hasSum (y := z) (by
    rw [← ENNReal.ofReal_one, Metric.eball_ofReal]
    simpa using hz)
  have e : (fun n => (halfChoose n : ℂ) * z ^ n) =
      fun n => (binomialSeries ℂ (1 / 2 : ℂ)) n fun _ => z := by
    funext n
    rw [binomialSeries_apply, halfChoose_eq, List.ofFn_const, List.prod_replicate, smul_eq_mul]
  rw [e]
  simpa only [zero_add] using h

/-- A trigonometric series may be integrated term by term against a continuous function. -/
theorem hasSum_integral_trig {a : ℕ → ℂ} (ha : Summable fun n => ‖a n‖) {f g : ℝ → ℂ}
    (hf : ∀ θ : ℝ, HasSum (fun n : ℕ => a n * Complex.exp (2 * n * θ * Complex.I)) (f θ))
    (hg : Continuous g) {G : ℝ} (hG : ∀ θ, ‖g θ‖ ≤ G) :
    HasSum (fun n : ℕ => ∫ θ in (0)..(2 * π), a n * Complex.exp (2 * n * θ * Complex.I) * g θ)
      (∫ θ in (0)..(2 * π), f θ * g θ) := by
  apply intervalIntegral.hasSum_integral_of_dominated_convergence (fun n _ => ‖a n‖ * G)
  · intro n
    apply Continuous.aestronglyMeasurable
    fun_prop
  · intro n
    filter_upwards with θ _
    rw [norm_mul, norm_mul]
    have : ‖Complex.exp (2 * n * θ * Complex.I)‖ = 1 := by
      have := Complex.norm_exp_ofReal_mul_I (2 * n * θ)
      push_cast at this
      exact this
    rw [this, mul_one]
    exact mul_le_mul_of_nonneg_left (hG θ) (norm_nonneg _)
  · filter_upwards with θ _
    exact ha.mul_right G
  · exact intervalIntegrable_const
  · filter_upwards with θ _
    exact (hf θ).mul_right (g θ)

theorem integral_exp_two (n k : ℕ) :
    ∫ θ in (0)..(2 * π), Complex.exp (2 * n * θ * Complex.I) * Complex.exp (-(2 * k * θ * Complex.I)) =
      if n = k then (2 * π : ℂ) else 0 := by
  have e : ∀ θ : ℝ, Complex.exp (2 * n * θ * Complex.I) * Complex.exp (-(2 * k * θ * Complex.I)) =
      Complex.exp ((2 * ((n : ℂ) - k) * Complex.I) * θ) := by
    intro θ
    rw [← Complex.exp_add]
    ring_nf
  simp_rw [e]
  by_cases h : n = k
  · subst h
    simp
  · rw [if_neg h, integral_exp_mul_complex]
    · have : (2 * ((n : ℂ) - k) * Complex.I) * ((2 * π : ℝ) : ℂ) = ((2 * ((n : ℤ) - k) : ℤ) : ℂ) * (2 * π * Complex.I) := by
        push_cast; ring
      rw [this, Complex.exp_int_mul_two_pi_mul_I]
      simp
    · have : (n : ℂ) - k ≠ 0 := sub_ne_zero.mpr (by exact_mod_cast h)
      simp [this]

/-- **Parseval** for a power series on a circle of radius one, run through twice. -/
theorem hasSum_parseval {a : ℕ → ℝ} (ha : Summable fun n => ‖a n‖) {f : ℝ → ℂ} (hfc : Continuous f)
    (hf : ∀ θ : ℝ, HasSum (fun n : ℕ => (a n : ℂ) * Complex.exp (2 * n * θ * Complex.I)) (f θ)) :
    HasSum (fun n => 2 * π * a n ^ 2) (∫ θ in (0)..(2 * π), ‖f θ‖ ^ 2) := by
  have hb : ∀ θ, ‖f θ‖ ≤ ∑' n, ‖a n‖ := by
    intro θ
    rw [← (hf θ).tsum_eq]
    have e : ∀ n : ℕ, ‖(a n : ℂ) * Complex.exp (2 * n * θ * Complex.I)‖ = ‖a n‖ := by
      intro n
      have := Complex.norm_exp_ofReal_mul_I (2 * n * θ)
      push_cast at this
      rw [norm_mul, this, mul_one, Complex.norm_real]
    refine (norm_tsum_le_tsum_norm ?_).trans ?_
    · simpa only [e] using ha
    · simp only [e]; rfl
  have ha' : Summable fun n => ‖(a n : ℂ)‖ := by simpa using ha
  have hcf : Continuous fun θ => (starRingEnd ℂ) (f θ) := Complex.continuous_conj.comp hfc
  have inner : ∀ n : ℕ, ∫ θ in (0)..(2 * π), (a n : ℂ) * Complex.exp (2 * n * θ * Complex.I) * (starRingEnd ℂ) (f θ)
      = ((2 * π * a n ^ 2 : ℝ) : ℂ) := by
    intro n
    have h := hasSum_integral_trig ha' hf (g := fun θ => (starRingEnd ℂ) ((a n : ℂ) * Complex.exp (2 * n * θ * Complex.I)))
      (by fun_prop) (G := ‖a n‖) (by
        intro θ
        have := Complex.norm_exp_ofReal_mul_I (2 * n * θ)
        push_cast at this
        rw [Complex.norm_conj, norm_mul, this, mul_one, Complex.norm_real])
    have e : ∀ k : ℕ, ∫ θ in (0)..(2 * π), (a k : ℂ) * Complex.exp (2 * k * θ * Complex.I) *
        (starRingEnd ℂ) ((a n : ℂ) * Complex.exp (2 * n * θ * Complex.I)) =
        if k = n then ((2 * π * a n ^ 2 : ℝ) : ℂ) else 0 := by
      intro k
      have e1 : ∀ θ : ℝ, (a k : ℂ) * Complex.exp (2 * k * θ * Complex.I) *
        (starRingEnd ℂ) ((a n : ℂ) * Complex.exp (2 * n * θ * Complex.I)) =
        (a k * a n : ℂ) * (Complex.exp (2 * k * θ * Complex.I) * Complex.exp (-(2 * n * θ * Complex.I))) := by
        intro θ
        rw [map_mul, Complex.conj_ofReal, ← Complex.exp_conj]
        simp only [map_mul, Complex.conj_ofReal, Complex.conj_I, map_natCast, map_ofNat]
        ring_nf
      simp_rw [e1]
      rw [intervalIntegral.integral_const_mul, integral_exp_two]
      split_ifs with hk
      · subst hk; push_cast; ring
      · simp
    simp_rw [e] at h
    have h1 := h.unique (hasSum_ite_eq n _)
    have h2 : ∫ θ in (0)..(2 * π), (a n : ℂ) * Complex.exp (2 * n * θ * Complex.I) * (starRingEnd ℂ) (f θ) =
        (starRingEnd ℂ) (∫ θ in (0)..(2 * π), f θ * (starRingEnd ℂ) ((a n : ℂ) * Complex.exp (2 * n * θ * Complex.I))) := by
      rw [← intervalIntegral.intervalIntegral_conj]
      congr 1
      funext θ
      simp only [map_mul, Complex.conj_conj]
      ring
    rw [h2, h1, Complex.conj_ofReal]
  have h := hasSum_integral_trig ha' hf hcf (G := ∑' n, ‖a n‖) (by
    intro θ; rw [Complex.norm_conj]; exact hb θ)
  simp_rw [inner] at h
  have e2 : ∫ θ in (0)..(2 * π), f θ * (starRingEnd ℂ) (f θ) = ((∫ θ in (0)..(2 * π), ‖f θ‖ ^ 2 : ℝ) : ℂ) := by
    rw [← intervalIntegral.integral_ofReal]
    congr 1
    funext θ
    rw [Complex.mul_conj, Complex.normSq_eq_norm_sq]
  rw [e2] at h
  exact_mod_cast h

theorem halfChoose_abs_le (n : ℕ) : |halfChoose n| ≤ 1 := by
  induction n with
  | zero => simp [halfChoose]
  | succ n ih =>
    have hn : (0 : ℝ) < n + 1 := by positivity
    rw [halfChoose, abs_mul]
    have : |(1 / 2 - (n : ℝ)) / (n + 1)| ≤ 1 := by
      rw [abs_div, abs_of_pos hn, div_le_one hn, abs_le]
      have : (0 : ℝ) ≤ n := Nat.cast_nonneg n
      constructor <;> linarith
    calc |halfChoose n| * |(1 / 2 - (n : ℝ)) / (n + 1)| ≤ 1 * 1 := mul_le_mul ih this (abs_nonneg _) (by norm_num)
      _ = 1 := by norm_num

/-- The mean of `|1 - m e^{2iθ}|` over a turn. -/
theorem hasSum_circle {m : ℝ} (hm : |m| < 1) :
    HasSum (fun n => 2 * π * (halfChoose n ^ 2 * (m * m) ^ n))
      (∫ θ in (0)..(2 * π), ‖1 - (m : ℂ) * Complex.exp (2 * (θ : ℝ) * Complex.I)‖) := by
  have hn : ∀ θ : ℝ, ‖-(m : ℂ) * Complex.exp (2 * θ * Complex.I)‖ < 1 := by
    intro θ
    have := Complex.norm_exp_ofReal_mul_I (2 * θ)
    push_cast at this
    rw [norm_mul, this, mul_one, norm_neg, Complex.norm_real]
    exact hm
  have hsum : Summable fun n => ‖halfChoose n * (-m) ^ n‖ := by
    refine Summable.of_nonneg_of_le (fun _ => norm_nonneg _) (fun n => ?_) (summable_geometric_of_lt_one (abs_nonneg m) hm)
    rw [norm_mul, norm_pow, Real.norm_eq_abs, Real.norm_eq_abs, abs_neg]
    exact mul_le_of_le_one_left (by positivity) (halfChoose_abs_le n)
  have h := hasSum_parseval (a := fun n => halfChoose n * (-m) ^ n)
    (f := fun θ => (1 + -(m : ℂ) * Complex.exp (2 * θ * Complex.I)) ^ (1 / 2 : ℂ)) hsum
    (by
      apply Continuous.cpow
      · fun_prop
      · fun_prop
      · intro θ; exact Complex.mem_slitPlane_of_norm_lt_one (hn θ))
    (by
      intro θ
      have := hasSum_sqrt (hn θ)
      refine this.congr_fun ?_ 
      intro n
      push_cast
      rw [mul_pow, ← Complex.exp_nat_mul]
      ring_nf)
  have e1 : ∀ θ : ℝ, ‖(1 + -(m : ℂ) * Complex.exp (2 * θ * Complex.I)) ^ (1 / 2 : ℂ)‖ ^ 2 =
      ‖1 - (m : ℂ) * Complex.exp (2 * (θ : ℝ) * Complex.I)‖ := by
    intro θ
    rw [← norm_pow]
    congr 1
    rw [one_div, show (2 : ℂ)⁻¹ = ((2 : ℕ) : ℂ)⁻¹ by norm_num, Complex.cpow_nat_inv_pow _ (by norm_num)]
    ring
  simp_rw [e1] at h
  have e2 : (fun n => 2 * π * (halfChoose n ^ 2 * (m * m) ^ n)) = fun n => 2 * π * (halfChoose n * (-m) ^ n) ^ 2 := by
    funext n
    rw [mul_pow (halfChoose n), ← pow_mul, mul_comm n 2, pow_mul, neg_sq, sq m]
  rw [e2]
  exact h

open Verif.Spec in
/-- The Gauss–Kummer series for the length of an ellipse. -/
theorem hasSum_ellipseLength {a b : ℝ} (ha : 0 < a) (hb : 0 < b) :
    HasSum (fun n => π * (a + b) * (halfChoose n ^ 2 * (((a - b) / (a + b)) * ((a - b) / (a + b))) ^ n)) (ellipseLength a b) := by
  have hs : 0 < a + b := by positivity
  set m := (a - b) / (a + b) with hm
  have hm1 : |m| < 1 := by
    rw [hm, abs_div, abs_of_pos hs, div_lt_one hs, abs_lt]
    constructor <;> linarith
  have h := (hasSum_circle hm1).mul_left ((a + b) / 2)
  have e1 : ∀ θ : ℝ, (a + b) / 2 * ‖1 - (m : ℂ) * Complex.exp (2 * (θ : ℝ) * Complex.I)‖ =
      ‖deriv (fun t : ℝ => ((a * cos t : ℝ) : ℂ) + (b * sin t : ℝ) * Complex.I) θ‖ := by
    intro θ
    have d1 : HasDerivAt (fun t : ℝ => ((a * cos t : ℝ) : ℂ)) ((a * -sin θ : ℝ) : ℂ) θ :=
      ((hasDerivAt_cos θ).const_mul a).ofReal_comp
    have d2 : HasDerivAt (fun t : ℝ => ((b * sin t : ℝ) : ℂ)) ((b * cos θ : ℝ) : ℂ) θ :=
      ((hasDerivAt_sin θ).const_mul b).ofReal_comp
    have d3 : HasDerivAt (fun t : ℝ => ((a * cos t : ℝ) : ℂ) + (b * sin t : ℝ) * Complex.I)
        (((a * -sin θ : ℝ) : ℂ) + (b * cos θ : ℝ) * Complex.I) θ := d1.add (d2.mul_const Complex.I)
    rw [d3.deriv]
    have hE : Complex.exp (2 * (θ : ℝ) * Complex.I) = (cos (2 * θ) : ℝ) + (sin (2 * θ) : ℝ) * Complex.I := by
      rw [Complex.exp_mul_I]; push_cast; rfl
    rw [hE]
    refine (sq_eq_sq₀ (by positivity) (norm_nonneg _)).mp ?_
    rw [mul_pow, ← Complex.normSq_eq_norm_sq, ← Complex.normSq_eq_norm_sq, Complex.normSq_apply, Complex.normSq_apply]
    simp only [Complex.add_re, Complex.add_im, Complex.sub_re, Complex.sub_im, Complex.mul_re, Complex.mul_im,
      Complex.ofReal_re, Complex.ofReal_im, Complex.I_re, Complex.I_im, Complex.one_re, Complex.one_im]
    have hms : (a + b) * m = a - b := by rw [hm]; field_simp
    have e4 := sin_sq_add_cos_sq θ
    rw [cos_two_mul, sin_two_mul]
    generalize sin θ = s at *
    generalize cos θ = c at *
    clear * - hms e4
    grind
  simp_rw [← intervalIntegral.integral_const_mul, e1] at h
  unfold ellipseLength
  have e2 : (fun n => π * (a + b) * (halfChoose n ^ 2 * (m * m) ^ n)) =
      fun n => (a + b) / 2 * (2 * π * (halfChoose n ^ 2 * (m * m) ^ n)) := by
    funext n; ring
  rw [e2]
  exact h

end Verif.Lemmas
