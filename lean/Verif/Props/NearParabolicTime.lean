import Verif.Lemmas.NearParabolicSeries
import Verif.Props.Orbits

/-! Property C132: near-parabolic motion obeys the law of areas. -/

namespace Verif.Props

open Verif.Go Real Verif.Model.Orbits Verif.Lemmas

/-- Distance on the conic of perihelion distance q and eccentricity e at true anomaly θ. -/
noncomputable def conicR (q e θ : ℝ) : ℝ := q * (1 + e) / (1 + e * cos θ)

theorem one_add_e_cos (e x : ℝ) (he : 0 < 1 + e) :
    1 + e * cos (2 * arctan x) = (1 + e) * (1 + (1 - e) / (1 + e) * x ^ 2) / (1 + x ^ 2) := by
  rw [cos_two_mul, cos_sq_arctan]
  have : (1 : ℝ) + x ^ 2 ≠ 0 := by positivity
  field_simp
  ring

/-- Twice the area swept since perihelion, as an integral over tan(θ/2). -/
theorem area_eq (q e s : ℝ) (he : 0 < 1 + e) (hU : |(1 - e) / (1 + e)| * s ^ 2 ≤ 0.75) :
    (∫ θ in (0 : ℝ)..2 * arctan s, conicR q e θ ^ 2) = 2 * q ^ 2 * ∫ x in (0 : ℝ)..s, npF ((1 - e) / (1 + e)) x := by
  have hs := intervalIntegral.integral_comp_mul_deriv'' (a := 0) (b := s) (f := fun x => 2 * arctan x) (f' := fun x => 2 * (1 / (1 + x ^ 2)))
    (g := fun θ => conicR q e θ ^ 2) (by fun_prop)
    (fun x _ => ((hasDerivAt_arctan x).const_mul 2).hasDerivWithinAt)
    (by apply Continuous.continuousOn; apply Continuous.mul continuous_const; apply Continuous.div continuous_const (by fun_prop); intro x; positivity)
    (by
      rintro θ ⟨x, hx, rfl⟩
      apply ContinuousAt.continuousWithinAt
      unfold conicR
      refine ContinuousAt.pow (ContinuousAt.div (by fun_prop) (by fun_prop) ?_) 2
      have hx2 : x ^ 2 ≤ s ^ 2 := by
        rw [sq_le_sq]
        rcases Set.mem_uIcc.1 hx with h | h
        · rw [abs_of_nonneg h.1]; exact h.2.trans (le_abs_self s)
        · rw [abs_of_nonpos h.2]; linarith [neg_abs_le s, h.1]
      have h1 : |(1 - e) / (1 + e) * x ^ 2| ≤ 0.75 := by
        rw [abs_mul, abs_of_nonneg (sq_nonneg x)]
        exact (mul_le_mul_of_nonneg_left hx2 (abs_nonneg _)).trans hU
      have h2 := (abs_le.1 h1).1
      show 1 + e * cos (2 * arctan x) ≠ 0
      rw [one_add_e_cos e x he]
      have : 0 < 1 + (1 - e) / (1 + e) * x ^ 2 := by linarith
      positivity)
  simp only [arctan_zero, mul_zero] at hs
  rw [← hs, ← intervalIntegral.integral_const_mul]
  congr 1
  funext x
  simp only [Function.comp]
  unfold conicR npF
  rw [one_add_e_cos e x he]
  have h1 : (1 : ℝ) + x ^ 2 ≠ 0 := by positivity
  by_cases h2 : 1 + (1 - e) / (1 + e) * x ^ 2 = 0
  · rw [h2]; simp
  · generalize (1 - e) / (1 + e) = g at *
    field_simp

set_option maxHeartbeats 2000000 in
/-- The value of tan(ν/2) the loops end with against the time equation. -/
theorem done_time (q2 g : ℝ) (hg : |g| ≤ 1 / 2) (steps fuel l : ℕ) (x s : ℝ) (h : outerLoop q2 g steps fuel l x = .done s) :
    |g| * s ^ 2 ≤ 0.71 ∧ |(∫ x in (0 : ℝ)..s, npF g x) - q2| ≤ 5e-8 * (1 + s ^ 2) := by
  obtain ⟨s0, n, q3, s1, n1, n2, h1, h2, h3, h4, h5⟩ := outerLoop_result q2 g steps fuel l x s h
  obtain ⟨hU, -⟩ := np_small g s0 hg n n1 n2 h1
  have e1 := np_series_error g s0 hg n n1 n2 h1
  have e2 := np_newton_residual q3 s s1 h3
  have hs0 : |s0| ≤ |s| + 1e-9 := by
    have := abs_sub_abs_le_abs_sub s0 s
    rw [abs_sub_comm] at this; linarith
  have hs0' : |s| ≤ |s0| + 1e-9 := by
    have := abs_sub_abs_le_abs_sub s s0
    linarith
  have hs1 : |s1| ≤ |s| + 1e-9 := by
    have := abs_sub_abs_le_abs_sub s1 s
    rw [abs_sub_comm] at this; linarith
  have a0 := abs_nonneg s
  have a00 := abs_nonneg s0
  have am : 2 * |s| ≤ 1 + s ^ 2 := by rw [← sq_abs s]; nlinarith [sq_nonneg (|s| - 1)]
  have am0 : 2 * |s0| ≤ 1 + s0 ^ 2 := by rw [← sq_abs s0]; nlinarith [sq_nonneg (|s0| - 1)]
  have g0 := abs_nonneg g
  -- points within 1e-9 of s0
  have near : ∀ y : ℝ, |y| ≤ |s0| + 1e-9 → |g| * y ^ 2 ≤ 0.71 := by
    intro y hy
    have hy2 : y ^ 2 ≤ s0 ^ 2 + 2e-9 * (1 + s0 ^ 2) := by
      rw [← sq_abs y]
      have : |y| ^ 2 ≤ (|s0| + 1e-9) ^ 2 := pow_le_pow_left₀ (abs_nonneg y) hy 2
      have e : (|s0| + 1e-9) ^ 2 = s0 ^ 2 + 2e-9 * |s0| + 1e-18 := by rw [← sq_abs s0]; ring
      rw [e] at this
      norm_num at this ⊢
      nlinarith [sq_nonneg s0]
    have := mul_le_mul_of_nonneg_left hy2 g0
    norm_num at this ⊢
    nlinarith
  have hUs := near s hs0'
  refine ⟨hUs, ?_⟩
  -- residual of the cubic
  have r1 : |s + s ^ 3 / 3 - q3| ≤ 1e-9 * (1 + s ^ 2) := by
    rw [e2, abs_div, abs_mul, abs_of_pos (by norm_num : (0 : ℝ) < 3), abs_of_nonneg (sq_nonneg _)]
    have t1 : (s - s1) ^ 2 ≤ 1e-18 := by
      rw [← sq_abs]
      calc |s - s1| ^ 2 ≤ (1e-9) ^ 2 := pow_le_pow_left₀ (abs_nonneg _) h4 2
        _ = 1e-18 := by norm_num
    have t2 : |s + 2 * s1| ≤ 3 * |s| + 2e-9 := by
      have := abs_add_le s (2 * s1)
      rw [abs_mul, abs_of_pos (by norm_num : (0 : ℝ) < 2)] at this
      norm_num at hs1 ⊢
      linarith
    have t3 := mul_le_mul t1 t2 (abs_nonneg _) (by norm_num)
    norm_num at t3 ⊢
    nlinarith [sq_nonneg s]
  have s0s : s0 ^ 2 ≤ s ^ 2 + 2e-9 * (1 + s ^ 2) := by
    rw [← sq_abs s0]
    have : |s0| ^ 2 ≤ (|s| + 1e-9) ^ 2 := pow_le_pow_left₀ a00 hs0 2
    have e : (|s| + 1e-9) ^ 2 = s ^ 2 + 2e-9 * |s| + 1e-18 := by rw [← sq_abs s]; ring
    rw [e] at this
    norm_num at this ⊢
    nlinarith [sq_nonneg s]
  have r2 : |(s0 + s0 ^ 3 / 3) - (s + s ^ 3 / 3)| ≤ 2e-9 * (1 + s ^ 2) := by
    have e : (s0 + s0 ^ 3 / 3) - (s + s ^ 3 / 3) = -(s - s0) * (1 + (s ^ 2 + s * s0 + s0 ^ 2) / 3) := by ring
    rw [e, abs_mul, abs_neg]
    have t : |1 + (s ^ 2 + s * s0 + s0 ^ 2) / 3| ≤ 2 * (1 + s ^ 2) := by
      rw [abs_le]
      norm_num at s0s
      constructor
      · nlinarith [sq_nonneg (s + s0), sq_nonneg s, sq_nonneg s0]
      · nlinarith [sq_nonneg (s - s0), sq_nonneg s, sq_nonneg s0]
    have := mul_le_mul h5 t (abs_nonneg _) (by norm_num)
    norm_num at this ⊢
    linarith
  have cont : ∀ a b : ℝ, |a| ≤ |s0| + 1e-9 → |b| ≤ |s0| + 1e-9 → IntervalIntegrable (npF g) MeasureTheory.volume a b := by
    intro a b ha hb
    apply ContinuousOn.intervalIntegrable
    have hM : |(|s0| + 1e-9)| = |s0| + 1e-9 := abs_of_nonneg (by positivity)
    have := npF_continuousOn g (|s0| + 1e-9) (by have := near (|s0| + 1e-9) hM.le; linarith)
    rw [hM] at this
    apply this.mono
    intro y hy
    have ha := abs_le.1 ha
    have hb := abs_le.1 hb
    rcases Set.mem_uIcc.1 hy with hy | hy
    · exact ⟨by linarith [hy.1], by linarith [hy.2]⟩
    · exact ⟨by linarith [hy.1], by linarith [hy.2]⟩
  have z0 : |(0 : ℝ)| ≤ |s0| + 1e-9 := by rw [abs_zero]; positivity
  have zs0 : |s0| ≤ |s0| + 1e-9 := by norm_num
  have r3 : |∫ x in s0..s, npF g x| ≤ 1.5e-8 * (1 + s ^ 2) := by
    have : |∫ x in s0..s, npF g x| ≤ 13 * (1 + s ^ 2) * |s - s0| := by
      rw [← Real.norm_eq_abs (∫ x in s0..s, npF g x)]
      apply intervalIntegral.norm_integral_le_of_norm_le_const
      intro y hy
      rw [Real.norm_eq_abs]
      have hy1 : |y| ≤ |s| + 1e-9 ∧ |y| ≤ |s0| + 1e-9 := by
        have u1 := abs_le.1 hs0
        have u2 := abs_le.1 hs0'
        have u3 := abs_le.1 (le_refl |s|)
        have u4 := abs_le.1 (le_refl |s0|)
        rcases Set.mem_uIoc.1 hy with hy | hy
        · constructor <;> rw [abs_le] <;> constructor <;> linarith [hy.1, hy.2]
        · constructor <;> rw [abs_le] <;> constructor <;> linarith [hy.1, hy.2]
      have hy2 := near y hy1.2
      have hy3 : |g * y ^ 2| ≤ 0.71 := by rw [abs_mul, abs_of_nonneg (sq_nonneg y)]; exact hy2
      have hy4 := (abs_le.1 hy3).1
      have hy5 : y ^ 2 ≤ s ^ 2 + 2e-9 * (1 + s ^ 2) := by
        rw [← sq_abs y]
        have : |y| ^ 2 ≤ (|s| + 1e-9) ^ 2 := pow_le_pow_left₀ (abs_nonneg y) hy1.1 2
        have e : (|s| + 1e-9) ^ 2 = s ^ 2 + 2e-9 * |s| + 1e-18 := by rw [← sq_abs s]; ring
        rw [e] at this
        norm_num at this ⊢
        nlinarith [sq_nonneg s]
      unfold npF
      have hden : (0.29 : ℝ) ^ 2 ≤ (1 + g * y ^ 2) ^ 2 := pow_le_pow_left₀ (by norm_num) (by linarith) 2
      have hden0 : (0 : ℝ) < (1 + g * y ^ 2) ^ 2 := lt_of_lt_of_le (by norm_num) hden
      rw [abs_of_nonneg (by positivity), div_le_iff₀ hden0]
      norm_num at hy5 hden
      nlinarith [sq_nonneg s, mul_le_mul_of_nonneg_left hden (by positivity : (0 : ℝ) ≤ 1 + s ^ 2)]
    have t := mul_le_mul_of_nonneg_left h5 (by positivity : (0 : ℝ) ≤ 13 * (1 + s ^ 2))
    norm_num at t ⊢
    nlinarith [sq_nonneg s]
  have split : (∫ x in (0 : ℝ)..s, npF g x) = (∫ x in (0 : ℝ)..s0, npF g x) + ∫ x in s0..s, npF g x :=
    (intervalIntegral.integral_add_adjacent_intervals (cont 0 s0 z0 zs0) (cont s0 s zs0 hs0')).symm
  have fin : (∫ x in (0 : ℝ)..s, npF g x) - q2 =
      ((∫ x in (0 : ℝ)..s0, npF g x) - (s0 - ∑ j ∈ Finset.range (n + 1), npTerm g s0 j)) + (∫ x in s0..s, npF g x) +
      ((s0 + s0 ^ 3 / 3) - (s + s ^ 3 / 3)) + (s + s ^ 3 / 3 - q3) := by
    rw [split, h2]; ring
  rw [fin]
  have t1 := abs_add_le (((∫ x in (0 : ℝ)..s0, npF g x) - (s0 - ∑ j ∈ Finset.range (n + 1), npTerm g s0 j)) + (∫ x in s0..s, npF g x) +
      ((s0 + s0 ^ 3 / 3) - (s + s ^ 3 / 3))) (s + s ^ 3 / 3 - q3)
  have t2 := abs_add_le (((∫ x in (0 : ℝ)..s0, npF g x) - (s0 - ∑ j ∈ Finset.range (n + 1), npTerm g s0 j)) + (∫ x in s0..s, npF g x))
      ((s0 + s0 ^ 3 / 3) - (s + s ^ 3 / 3))
  have t3 := abs_add_le ((∫ x in (0 : ℝ)..s0, npF g x) - (s0 - ∑ j ∈ Finset.range (n + 1), npTerm g s0 j)) (∫ x in s0..s, npF g x)
  norm_num at e1 r1 r2 r3 ⊢
  nlinarith [sq_nonneg s]

/-- C132.  For eccentricities from 1/3 to 3 a result returned without an error is a point of the conic at the true anomaly returned, and
the area swept since perihelion up to it, ½∫r²dθ, is the one the law of areas gives for the time elapsed, ½K√(q(1+e))·t, to
5·10⁻⁸ q²(1+tan²(ν/2)).  The point lies on the branch about the focus: 1 + e cos θ > 0 all the way. -/
theorem C132_areas (steps : ℕ) (timeP q ecc jde ν r : ℝ) (hq : 0 < q) (h0 : 1 / 3 ≤ ecc) (h1 : ecc ≤ 3)
    (h : nearparabolicAD steps timeP q ecc jde = .ok ν r) :
    0 ≤ ν ∧ ν < 2 * π ∧ ∃ w, (ν = w ∨ ν = w + 2 * π) ∧ -π < w ∧ w < π ∧
      (∀ θ, |θ| ≤ |w| → 0 < 1 + ecc * cos θ) ∧ r = conicR q ecc w ∧
      |(∫ θ in (0 : ℝ)..w, conicR q ecc θ ^ 2) - K * sqrt (q * (1 + ecc)) * (jde - timeP)| ≤ 1e-7 * q ^ 2 * (1 + tan (w / 2) ^ 2) := by
  have hpi := pi_pos
  have he : 0 < 1 + ecc := by linarith
  have hg : |(1 - ecc) / (1 + ecc)| ≤ 1 / 2 := by
    rw [abs_le]
    constructor
    · rw [le_div_iff₀ he]; linarith
    · rw [div_le_iff₀ he]; linarith
  have hconst : K * sqrt (q * (1 + ecc)) * (jde - timeP) = 2 * q ^ 2 * (K * sqrt ((1 + ecc) / q) / (2 * q) * (jde - timeP)) := by
    have e : sqrt (q * (1 + ecc)) = q * sqrt ((1 + ecc) / q) := by
      have : q * (1 + ecc) = q ^ 2 * ((1 + ecc) / q) := by field_simp
      rw [this, sqrt_mul (by positivity), sqrt_sq hq.le]
    rw [e]; field_simp
  -- everything from the value of s
  have main : ∀ s, finish q ecc s = .ok ν r → |(1 - ecc) / (1 + ecc)| * s ^ 2 ≤ 0.71 →
      |(∫ x in (0 : ℝ)..s, npF ((1 - ecc) / (1 + ecc)) x) - K * sqrt ((1 + ecc) / q) / (2 * q) * (jde - timeP)| ≤ 5e-8 * (1 + s ^ 2) →
      0 ≤ ν ∧ ν < 2 * π ∧ ∃ w, (ν = w ∨ ν = w + 2 * π) ∧ -π < w ∧ w < π ∧
      (∀ θ, |θ| ≤ |w| → 0 < 1 + ecc * cos θ) ∧ r = conicR q ecc w ∧
      |(∫ θ in (0 : ℝ)..w, conicR q ecc θ ^ 2) - K * sqrt (q * (1 + ecc)) * (jde - timeP)| ≤ 1e-7 * q ^ 2 * (1 + tan (w / 2) ^ 2) := by
    intro s hf hU ht
    unfold finish at hf
    dsimp only at hf
    have b1 := arctan_lt_pi_div_two s
    have b2 := neg_pi_div_two_lt_arctan s
    injection hf with hν hr
    have hw : 0 ≤ ν ∧ ν < 2 * π ∧ (ν = 2 * arctan s ∨ ν = 2 * arctan s + 2 * π) := by
      rw [← hν]
      split_ifs with hneg
      · exact ⟨by linarith, by linarith, Or.inr rfl⟩
      · exact ⟨by linarith, by linarith, Or.inl rfl⟩
    refine ⟨hw.1, hw.2.1, 2 * arctan s, hw.2.2, by linarith, by linarith, ?_, hr.symm, ?_⟩
    · intro θ hθ
      have hcos : cos (2 * arctan s) ≤ cos θ := by
        rw [← cos_abs θ, ← cos_abs (2 * arctan s)]
        apply cos_le_cos_of_nonneg_of_le_pi (abs_nonneg θ) _ hθ
        rw [abs_le]; constructor <;> linarith
      have hend : 0 < 1 + ecc * cos (2 * arctan s) := by
        rw [one_add_e_cos ecc s he]
        have h3 : |(1 - ecc) / (1 + ecc) * s ^ 2| ≤ 0.71 := by rw [abs_mul, abs_of_nonneg (sq_nonneg s)]; exact hU
        have : 0 < 1 + (1 - ecc) / (1 + ecc) * s ^ 2 := by linarith [(abs_le.1 h3).1]
        positivity
      nlinarith
    · rw [area_eq q ecc s he (by linarith), hconst, ← mul_sub, abs_mul, abs_of_pos (by positivity : 0 < 2 * q ^ 2),
        mul_div_cancel_left₀ _ two_ne_zero, tan_arctan]
      have := mul_le_mul_of_nonneg_left ht (by positivity : 0 ≤ 2 * q ^ 2)
      norm_num at this ⊢
      linarith
  by_cases ht : jde - timeP = 0
  · unfold nearparabolicAD at h
    dsimp only at h
    rw [if_pos ht] at h
    injection h with hν hr
    refine ⟨hν.le, by rw [← hν]; linarith, 0, Or.inl hν.symm, by linarith, hpi, ?_, ?_, ?_⟩
    · intro θ hθ
      rw [abs_zero] at hθ
      have : θ = 0 := abs_eq_zero.1 (le_antisymm hθ (abs_nonneg θ))
      rw [this, cos_zero]; linarith
    · unfold conicR; rw [cos_zero, mul_one, ← hr]; field_simp
    · rw [ht]; simp; positivity
  · unfold nearparabolicAD at h
    dsimp only at h
    rw [if_neg ht] at h
    by_cases h3 : ecc = 1
    · rw [if_neg (not_not.2 h3)] at h
      have hm0 : 0 < K * sqrt ((1 + ecc) / q) / (2 * q) := by unfold K; positivity
      have hb := startS_barker _ (jde - timeP) hm0 ht
      apply main _ h
      · rw [h3]; norm_num
      · generalize startS (K * sqrt ((1 + ecc) / q) / (2 * q) * (jde - timeP)) (jde - timeP) = s at *
        have hi : (∫ x in (0 : ℝ)..s, npF ((1 - ecc) / (1 + ecc)) x) = s + s ^ 3 / 3 := by
          rw [h3]
          have : npF ((1 - 1) / (1 + 1)) = fun x => 1 + x ^ 2 := by funext x; unfold npF; simp
          rw [this, intervalIntegral.integral_add (by simp) (by apply Continuous.intervalIntegrable; fun_prop)]
          simp [integral_pow]
          norm_num
        rw [hi, show s + s ^ 3 / 3 - K * sqrt ((1 + ecc) / q) / (2 * q) * (jde - timeP) = 0 by linarith, abs_zero]
        positivity
    · rw [if_pos h3] at h
      generalize hs : startS (K * sqrt ((1 + ecc) / q) / (2 * q) * (jde - timeP)) (jde - timeP) = x at *
      cases ho : outerLoop (K * sqrt ((1 + ecc) / q) / (2 * q) * (jde - timeP)) ((1 - ecc) / (1 + ecc)) steps 51 0 x with
      | done s =>
        rw [ho] at h
        obtain ⟨k1, k2⟩ := done_time _ _ hg steps 51 0 x s ho
        exact main s h k1 k2
      | noConvergence => rw [ho] at h; cases h
      | running => rw [ho] at h; cases h

/-- C132.  Near perihelion there is no error: a result is returned whenever K√((1+e)/q)·|t|/(2q) ≤ 10⁻³. -/
theorem C132_near_perihelion (timeP q ecc jde : ℝ) (hq : 0 < q) (h0 : 1 / 3 ≤ ecc) (h1 : ecc ≤ 3)
    (ht : |K * sqrt ((1 + ecc) / q) / (2 * q) * (jde - timeP)| ≤ 1e-3) (steps : ℕ) :
    ∃ ν r, nearparabolicAD (steps + 1) timeP q ecc jde = .ok ν r := by
  have he : 0 < 1 + ecc := by linarith
  have hg : |(1 - ecc) / (1 + ecc)| ≤ 1 / 2 := by
    rw [abs_le]
    constructor
    · rw [le_div_iff₀ he]; linarith
    · rw [div_le_iff₀ he]; linarith
  unfold nearparabolicAD
  dsimp only
  by_cases hz : jde - timeP = 0
  · rw [if_pos hz]; exact ⟨_, _, rfl⟩
  rw [if_neg hz]
  by_cases h3 : ecc = 1
  · rw [if_neg (not_not.2 h3)]; exact ⟨_, _, rfl⟩
  rw [if_pos h3]
  have hm0 : 0 < K * sqrt ((1 + ecc) / q) / (2 * q) := by unfold K; positivity
  have hb := startS_barker _ (jde - timeP) hm0 hz
  generalize startS (K * sqrt ((1 + ecc) / q) / (2 * q) * (jde - timeP)) (jde - timeP) = x at *
  generalize K * sqrt ((1 + ecc) / q) / (2 * q) * (jde - timeP) = q2 at *
  generalize (1 - ecc) / (1 + ecc) = g at *
  have hx : |x| ≤ 1e-3 := by
    have e : |x| * (|x| ^ 2 + 3) = 3 * |q2| := by
      have : |x ^ 3 + 3 * x| = |x| * (|x| ^ 2 + 3) := by
        rw [show x ^ 3 + 3 * x = x * (x ^ 2 + 3) by ring, abs_mul, abs_of_pos (by positivity : 0 < x ^ 2 + 3), sq_abs]
      rw [← this, hb, abs_mul]; norm_num
    nlinarith [abs_nonneg x, sq_nonneg |x|, mul_nonneg (abs_nonneg x) (sq_nonneg |x|)]
  have x0 := abs_nonneg x
  have hp : ∀ n : ℕ, |x| ^ n ≤ (1e-3) ^ n := fun n => pow_le_pow_left₀ x0 hx n
  have hgb := abs_le.1 hg
  obtain ⟨f, hf⟩ : ∃ f, f = ((1 : ℝ) + 1 - (1 + 1 + 1) * g) / (2 * (1 + 1) + 1) * (-(-(x * x) * x) * g * (x * x)) := ⟨_, rfl⟩
  have hfb : |f| ≤ 1e-15 := by
    have e : f = (2 - 3 * g) / 5 * g * x ^ 5 := by rw [hf]; ring
    rw [e, abs_mul, abs_mul, abs_pow]
    have a1 : |(2 - 3 * g) / 5| ≤ 1 := by rw [abs_le]; constructor <;> linarith
    have a2 := mul_le_mul a1 hg (abs_nonneg g) (by norm_num)
    have a3 := mul_le_mul a2 (hp 5) (by positivity) (by norm_num)
    norm_num at a3 ⊢
    linarith
  have hser : seriesLoop g (x * x) 50 1 (-(x * x) * x) (q2 + 2 * g * x * (x * x) / 3) = some (q2 + 2 * g * x * (x * x) / 3 + f) := by
    rw [show (50 : ℕ) = 49 + 1 from rfl]
    unfold seriesLoop
    dsimp only
    rw [← hf, if_neg, if_pos]
    · exact hfb.trans (by norm_num)
    · push Not
      exact ⟨by norm_num, hfb.trans (by norm_num)⟩
  have hstep : |newtonStep (q2 + 2 * g * x * (x * x) / 3 + f) x - x| ≤ 1e-9 := by
    unfold newtonStep
    have hd : 0 < x * x + 1 := by nlinarith [mul_self_nonneg x]
    have e : (2 * x * x * x / 3 + (q2 + 2 * g * x * (x * x) / 3 + f)) / (x * x + 1) - x = (2 * g * x ^ 3 / 3 + f) / (x * x + 1) := by
      rw [div_sub' hd.ne']
      congr 1
      linear_combination (-1 / 3) * hb
    rw [e, abs_div, abs_of_pos hd, div_le_iff₀ hd]
    have a1 : |2 * g * x ^ 3 / 3| ≤ 1 / 3 * 1e-9 := by
      rw [abs_div, abs_mul, abs_mul, abs_pow]
      have := mul_le_mul hg (hp 3) (by positivity) (by norm_num)
      norm_num at this ⊢
      linarith
    have a2 := abs_add_le (2 * g * x ^ 3 / 3) f
    have a3 := mul_self_nonneg x
    norm_num at a1 hfb ⊢
    nlinarith
  have hout : ∃ s, outerLoop q2 g (steps + 1) 51 0 x = .done s := by
    rw [show (51 : ℕ) = 50 + 1 from rfl]
    unfold outerLoop
    dsimp only
    rw [hser]
    dsimp only
    rw [if_neg (by norm_num)]
    unfold newtonLoop
    dsimp only
    rw [if_pos hstep]
    dsimp only
    rw [if_pos hstep]
    exact ⟨_, rfl⟩
  obtain ⟨s, hs⟩ := hout
  rw [hs]
  exact ⟨_, _, rfl⟩

/-- A comet of eccentricity 1.001 a hundredth of a day after perihelion. -/
example : ∃ ν r, nearparabolicAD 1 0 1 1.001 0.01 = .ok ν r := by
  apply C132_near_perihelion 0 1 1.001 0.01 (by norm_num) (by norm_num) (by norm_num)
  have h : sqrt ((1 + 1.001) / 1) ≤ 2 := by rw [sqrt_le_left (by norm_num)]; norm_num
  have h0 := sqrt_nonneg ((1 + 1.001) / 1)
  generalize sqrt ((1 + 1.001) / 1) = y at *
  unfold K
  rw [abs_of_nonneg (by positivity)]
  norm_num
  linarith

end Verif.Props
