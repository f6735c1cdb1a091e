import Verif.Lemmas.NearParabolic
import Mathlib.Analysis.SpecialFunctions.Integrals.Basic
import Mathlib.MeasureTheory.Integral.IntervalIntegral.FundThmCalculus
import Mathlib.Analysis.SpecificLimits.Normed
import Mathlib.Tactic

/-! The series of the near-parabolic motion against the integral it stands for. -/

namespace Verif.Lemmas

open Verif.Go Real Verif.Model.Orbits

/-- The term of the series with z = j + 1. -/
noncomputable def npTerm (g s : ℝ) (j : ℕ) : ℝ :=
  ((j + 1 : ℝ) - (j + 2) * g) / (2 * (j + 1) + 1) * (-s * (s * s) ^ (j + 1) * (-g) ^ j)

theorem seriesLoop_result (g s : ℝ) : ∀ (fuel j : ℕ) (q3 out : ℝ),
    seriesLoop g (s * s) fuel (j + 1) (-s * (s * s) ^ (j + 1) * (-g) ^ j) q3 = some out →
    ∃ n, j < n ∧ n ≤ 49 ∧ out = q3 + ∑ i ∈ Finset.Ioc j n, npTerm g s i ∧ |npTerm g s n| ≤ 1e-9
  | 0, j, q3, out, h => by simp [seriesLoop] at h
  | fuel + 1, j, q3, out, h => by
    unfold seriesLoop at h
    dsimp only at h
    have e1 : -(-s * (s * s) ^ (j + 1) * (-g) ^ j) * g * (s * s) = -s * (s * s) ^ (j + 1 + 1) * (-g) ^ (j + 1) := by ring
    have e2 : ((j : ℝ) + 1 + 1 - (j + 1 + 1 + 1) * g) / (2 * (j + 1 + 1) + 1) * (-s * (s * s) ^ (j + 1 + 1) * (-g) ^ (j + 1)) = npTerm g s (j + 1) := by
      unfold npTerm; push_cast; ring
    rw [e1, e2] at h
    split_ifs at h with h1 h2
    · cases h
      refine ⟨j + 1, by omega, ?_, ?_, h2⟩
      · by_contra hc
        apply h1; left
        have : (50 : ℝ) ≤ (j + 1 : ℕ) := by exact_mod_cast (by omega : 50 ≤ j + 1)
        push_cast at this; linarith
      · rw [show Finset.Ioc j (j + 1) = {j + 1} by simp, Finset.sum_singleton]
    · have e3 : ((j : ℝ) + 1 + 1) = ((j + 1 : ℕ) : ℝ) + 1 := by push_cast; ring
      rw [e3] at h
      obtain ⟨n, k1, k2, k3, k4⟩ := seriesLoop_result g s fuel (j + 1) _ _ h
      refine ⟨n, by omega, k2, ?_, k4⟩
      rw [k3, add_assoc]
      congr 1
      rw [← Finset.sum_Ioc_consecutive _ (Nat.le_succ j) (by omega : j + 1 ≤ n),
        show Finset.Ioc j j.succ = {j + 1} by simp, Finset.sum_singleton]

theorem newtonLoop_result (q3 : ℝ) : ∀ (n : ℕ) (x s : ℝ), newtonLoop q3 n x = some s →
    ∃ s1, s = newtonStep q3 s1 ∧ |s - s1| ≤ 1e-9
  | 0, x, s, h => by simp [newtonLoop] at h
  | n + 1, x, s, h => by
    unfold newtonLoop at h
    dsimp only at h
    split_ifs at h with h1
    · cases h; exact ⟨x, rfl, h1⟩
    · exact newtonLoop_result q3 n _ s h

theorem np_newton_residual (q3 s s1 : ℝ) (h : s = newtonStep q3 s1) : s + s ^ 3 / 3 - q3 = (s - s1) ^ 2 * (s + 2 * s1) / 3 := by
  unfold newtonStep at h
  have : (0 : ℝ) < s1 * s1 + 1 := by nlinarith [mul_self_nonneg s1]
  rw [eq_div_iff this.ne'] at h
  linear_combination h

theorem outerLoop_result (q2 g : ℝ) (steps : ℕ) : ∀ (fuel l : ℕ) (x s : ℝ), outerLoop q2 g steps fuel l x = .done s →
    ∃ s0 n q3 s1, 0 < n ∧ n ≤ 49 ∧ |npTerm g s0 n| ≤ 1e-9 ∧ q3 = q2 + s0 ^ 3 / 3 + ∑ i ∈ Finset.range (n + 1), npTerm g s0 i ∧
      s = newtonStep q3 s1 ∧ |s - s1| ≤ 1e-9 ∧ |s - s0| ≤ 1e-9
  | 0, l, x, s, h => by simp [outerLoop] at h
  | fuel + 1, l, x, s, h => by
    unfold outerLoop at h
    dsimp only at h
    split at h
    · cases h
    · rename_i q3 hq3
      split_ifs at h with h1
      split at h
      · cases h
      · rename_i s' hs'
        split_ifs at h with h2
        · cases h
          have e : seriesLoop g (x * x) 50 1 (-(x * x) * x) (q2 + 2 * g * x * (x * x) / 3) =
              seriesLoop g (x * x) 50 ((0 : ℕ) + 1) (-x * (x * x) ^ (0 + 1) * (-g) ^ 0) (q2 + 2 * g * x * (x * x) / 3) := by
            congr 1
            · push_cast; ring
            · ring
          rw [e] at hq3
          obtain ⟨n, k1, k2, k3, k4⟩ := seriesLoop_result g x 50 0 _ _ hq3
          obtain ⟨s1, m1, m2⟩ := newtonLoop_result _ _ _ _ hs'
          refine ⟨x, n, q3, s1, k1, k2, k4, ?_, m1, m2, h2⟩
          rw [k3, Finset.sum_range_eq_add_Ico _ (by omega : 0 < n + 1)]
          have : Finset.Ico 1 (n + 1) = Finset.Ioc 0 n := by ext i; simp; omega
          rw [this]
          unfold npTerm
          push_cast
          ring
        · exact outerLoop_result q2 g steps fuel (l + 1) _ s h

/-- The integrand of the time since perihelion, as a function of tan(ν/2). -/
noncomputable def npF (g x : ℝ) : ℝ := (1 + x ^ 2) / (1 + g * x ^ 2) ^ 2

/-- The integrand cut after the term of degree 2(N+1). -/
noncomputable def npP (g : ℝ) (N : ℕ) (x : ℝ) : ℝ :=
  1 + ∑ j ∈ Finset.range (N + 1), ((j + 1 : ℝ) - (j + 2) * g) * (-g) ^ j * (x ^ 2) ^ (j + 1)

theorem npP_remainder (g : ℝ) (N : ℕ) (x : ℝ) :
    (1 + g * x ^ 2) ^ 2 * npP g N x = 1 + x ^ 2 -
      ((-g * x ^ 2) ^ (N + 2) * (N + 3 - (N + 2) * (-g * x ^ 2)) + x ^ 2 * (-g * x ^ 2) ^ (N + 1) * (N + 2 - (N + 1) * (-g * x ^ 2))) := by
  unfold npP
  induction N with
  | zero => simp; ring
  | succ N ih =>
    rw [Finset.sum_range_succ, ← add_assoc, mul_add, ih]
    push_cast
    ring

theorem npP_integral (g : ℝ) (N : ℕ) (s : ℝ) : ∫ x in (0 : ℝ)..s, npP g N x = s - ∑ j ∈ Finset.range (N + 1), npTerm g s j := by
  have hd : ∀ x, HasDerivAt (fun s => s - ∑ j ∈ Finset.range (N + 1), npTerm g s j) (npP g N x) x := by
    intro x
    unfold npP
    rw [← sub_neg_eq_add, ← Finset.sum_neg_distrib]
    apply (hasDerivAt_id x).sub
    have h1 : ∀ j ∈ Finset.range (N + 1), HasDerivAt (fun s => npTerm g s j)
        (-(((j + 1 : ℝ) - (j + 2) * g) * (-g) ^ j * (x ^ 2) ^ (j + 1))) x := by
      intro j _
      have e : (fun s => npTerm g s j) = fun s => -(((j + 1 : ℝ) - (j + 2) * g) / (2 * (j + 1) + 1) * (-g) ^ j) * s ^ (2 * j + 3) := by
        funext s; unfold npTerm; ring
      rw [e]
      have := (hasDerivAt_pow (2 * j + 3) x).const_mul (-(((j + 1 : ℝ) - (j + 2) * g) / (2 * (j + 1) + 1) * (-g) ^ j))
      refine this.congr_deriv ?_
      have hj : (2 * (j + 1 : ℝ) + 1) ≠ 0 := by positivity
      rw [show 2 * j + 3 - 1 = 2 * (j + 1) by omega, pow_mul]
      push_cast
      field_simp
      ring
    exact HasDerivAt.fun_sum h1
  rw [intervalIntegral.integral_eq_sub_of_hasDerivAt (fun x _ => hd x)]
  · simp [npTerm]
  · apply Continuous.intervalIntegrable
    unfold npP
    fun_prop

theorem npF_continuousOn (g S : ℝ) (hU : |g| * S ^ 2 ≤ 0.75) : ContinuousOn (npF g) (Set.Icc (-|S|) |S|) := by
  unfold npF
  apply ContinuousOn.div (by fun_prop) (by fun_prop)
  intro x hx
  have hx2 : x ^ 2 ≤ S ^ 2 := sq_le_sq.2 (abs_le.2 hx)
  have : |g * x ^ 2| ≤ 0.75 := by
    rw [abs_mul, abs_of_nonneg (sq_nonneg x)]
    exact (mul_le_mul_of_nonneg_left hx2 (abs_nonneg g)).trans hU
  have := (abs_le.1 this).1
  have : 0 < 1 + g * x ^ 2 := by linarith
  positivity

theorem npF_sub_npP (g s : ℝ) (N : ℕ) (hU : |g| * s ^ 2 ≤ 0.7) (x : ℝ) (hx : |x| ≤ |s|) :
    |npF g x - npP g N x| ≤ 50 * (1 + s ^ 2) * ((N + 3) * 0.7 ^ (N + 1)) := by
  have hx2 : x ^ 2 ≤ s ^ 2 := sq_le_sq.2 hx
  obtain ⟨u, hu⟩ : ∃ u, u = -g * x ^ 2 := ⟨_, rfl⟩
  have hu1 : |u| ≤ 0.7 := by
    rw [hu, abs_mul, abs_neg, abs_of_nonneg (sq_nonneg x)]
    exact (mul_le_mul_of_nonneg_left hx2 (abs_nonneg g)).trans hU
  have h := npP_remainder g N x
  rw [← hu, show (1 + g * x ^ 2) = 1 - u by rw [hu]; ring] at h
  have hpos : 0.3 ≤ 1 - u := by have := (abs_le.1 hu1).2; linarith
  have hp2 : (0.09 : ℝ) ≤ (1 - u) ^ 2 := by nlinarith
  have e : npF g x - npP g N x = (u ^ (N + 2) * (N + 3 - (N + 2) * u) + x ^ 2 * u ^ (N + 1) * (N + 2 - (N + 1) * u)) / (1 - u) ^ 2 := by
    unfold npF
    rw [show (1 + g * x ^ 2) = 1 - u by rw [hu]; ring, eq_div_iff (by positivity), sub_mul, div_mul_cancel₀ _ (by positivity)]
    linarith
  rw [e, abs_div, abs_of_pos (by linarith : (0 : ℝ) < (1 - u) ^ 2), div_le_iff₀ (by linarith)]
  have hN : (0 : ℝ) ≤ N := Nat.cast_nonneg N
  have p1 : |u| ^ (N + 1) ≤ 0.7 ^ (N + 1) := pow_le_pow_left₀ (abs_nonneg u) hu1 _
  have q1 : |(N : ℝ) + 3 - (N + 2) * u| ≤ 2 * (N + 3) := by
    rw [abs_le]; have := abs_le.1 hu1; constructor <;> nlinarith
  have q2 : |(N : ℝ) + 2 - (N + 1) * u| ≤ 2 * (N + 3) := by
    rw [abs_le]; have := abs_le.1 hu1; constructor <;> nlinarith
  have b1 : |u ^ (N + 2) * (N + 3 - (N + 2) * u) + x ^ 2 * u ^ (N + 1) * (N + 2 - (N + 1) * u)| ≤ 0.7 ^ (N + 1) * (2 * (N + 3)) * (1 + s ^ 2) := by
    have t1 : |u ^ (N + 2) * (N + 3 - (N + 2) * u)| ≤ 0.7 ^ (N + 1) * (2 * (N + 3)) := by
      rw [abs_mul, abs_pow, pow_succ]
      apply mul_le_mul _ q1 (abs_nonneg _) (by positivity)
      calc |u| ^ (N + 1) * |u| ≤ 0.7 ^ (N + 1) * 1 := mul_le_mul p1 (by linarith) (abs_nonneg _) (by positivity)
        _ = _ := mul_one _
    have t2 : |x ^ 2 * u ^ (N + 1) * (N + 2 - (N + 1) * u)| ≤ s ^ 2 * 0.7 ^ (N + 1) * (2 * (N + 3)) := by
      rw [abs_mul, abs_mul, abs_pow u, abs_of_nonneg (sq_nonneg x)]
      apply mul_le_mul _ q2 (abs_nonneg _) (by positivity)
      exact mul_le_mul hx2 p1 (by positivity) (by positivity)
    have := abs_add_le (u ^ (N + 2) * (N + 3 - (N + 2) * u)) (x ^ 2 * u ^ (N + 1) * (N + 2 - (N + 1) * u))
    linarith
  refine b1.trans ?_
  have : (0 : ℝ) ≤ (1 + s ^ 2) * ((N + 3) * 0.7 ^ (N + 1)) := by positivity
  nlinarith

theorem npTerm_le (g s : ℝ) (hg : |g| ≤ 1 / 2) (j : ℕ) : |npTerm g s j| ≤ |s| * s ^ 2 * (|g| * s ^ 2) ^ j := by
  unfold npTerm
  rw [abs_mul, abs_mul, abs_mul, abs_neg, abs_pow, abs_pow, abs_neg, abs_of_nonneg (mul_self_nonneg s)]
  have hj : (0 : ℝ) ≤ j := Nat.cast_nonneg j
  have h1 : |((j + 1 : ℝ) - (j + 2) * g) / (2 * (j + 1) + 1)| ≤ 1 := by
    rw [abs_div, abs_of_pos (by positivity : (0 : ℝ) < 2 * (j + 1) + 1), div_le_one (by positivity), abs_le]
    have := abs_le.1 hg
    constructor <;> nlinarith
  have hss := mul_self_nonneg s
  have h2 : (0 : ℝ) ≤ |s| * (s * s) ^ (j + 1) * |g| ^ j :=
    mul_nonneg (mul_nonneg (abs_nonneg s) (pow_nonneg hss _)) (pow_nonneg (abs_nonneg g) _)
  calc _ ≤ 1 * (|s| * (s * s) ^ (j + 1) * |g| ^ j) := mul_le_mul_of_nonneg_right h1 h2
    _ = _ := by rw [mul_pow]; ring

theorem npTerm_ge (g s : ℝ) (hg : |g| ≤ 1 / 2) (j : ℕ) (hj1 : 1 ≤ j) : |s| * s ^ 2 * (|g| * s ^ 2) ^ j ≤ 10 * |npTerm g s j| := by
  unfold npTerm
  rw [abs_mul, abs_mul, abs_mul, abs_neg, abs_pow, abs_pow, abs_neg, abs_of_nonneg (mul_self_nonneg s)]
  have hj : (1 : ℝ) ≤ j := by exact_mod_cast hj1
  have h1 : 1 / 10 ≤ |((j + 1 : ℝ) - (j + 2) * g) / (2 * (j + 1) + 1)| := by
    refine le_trans ?_ (le_abs_self _)
    rw [le_div_iff₀ (by positivity)]
    have := abs_le.1 hg
    nlinarith
  have hss := mul_self_nonneg s
  have h2 : (0 : ℝ) ≤ |s| * (s * s) ^ (j + 1) * |g| ^ j :=
    mul_nonneg (mul_nonneg (abs_nonneg s) (pow_nonneg hss _)) (pow_nonneg (abs_nonneg g) _)
  have h3 := mul_le_mul_of_nonneg_right h1 h2
  calc _ = |s| * (s * s) ^ (j + 1) * |g| ^ j := by rw [mul_pow]; ring
    _ ≤ _ := by linarith

/-- The series converges where its 2nd to 50th terms reach 1e-9. -/
theorem np_small (g s : ℝ) (hg : |g| ≤ 1 / 2) (n : ℕ) (h1 : 1 ≤ n) (h2 : n ≤ 49) (h : |npTerm g s n| ≤ 1e-9) :
    |g| * s ^ 2 ≤ 0.7 ∧ |s| * s ^ 2 * (|g| * s ^ 2) ^ n ≤ 1e-8 := by
  have h3 := npTerm_ge g s hg n h1
  have h4 : |s| * s ^ 2 * (|g| * s ^ 2) ^ n ≤ 1e-8 := by norm_num at h ⊢; linarith
  refine ⟨?_, h4⟩
  by_contra hc
  push Not at hc
  have hs2 : 1.4 ≤ s ^ 2 := by
    have := mul_le_mul_of_nonneg_right hg (sq_nonneg s)
    linarith
  have hs1 : 1 ≤ |s| := by
    rw [← sq_abs] at hs2
    nlinarith [abs_nonneg s]
  have p1 : (0.7 : ℝ) ^ 49 ≤ (|g| * s ^ 2) ^ n := by
    calc (0.7 : ℝ) ^ 49 ≤ 0.7 ^ n := pow_le_pow_of_le_one (by norm_num) (by norm_num) h2
      _ ≤ _ := pow_le_pow_left₀ (by norm_num) hc.le n
  have : 1 * 1.4 * (0.7 : ℝ) ^ 49 ≤ |s| * s ^ 2 * (|g| * s ^ 2) ^ n :=
    mul_le_mul (mul_le_mul hs1 hs2 (by norm_num) (abs_nonneg s)) p1 (by positivity) (by positivity)
  norm_num at this h4
  linarith

open Filter Topology in
/-- The sum used by the routine against the integral. -/
theorem np_series_error (g s : ℝ) (hg : |g| ≤ 1 / 2) (n : ℕ) (h1 : 1 ≤ n) (h2 : n ≤ 49) (h : |npTerm g s n| ≤ 1e-9) :
    |(∫ x in (0 : ℝ)..s, npF g x) - (s - ∑ j ∈ Finset.range (n + 1), npTerm g s j)| ≤ 2.4e-8 := by
  obtain ⟨hU, hn⟩ := np_small g s hg n h1 h2 h
  have hint : IntervalIntegrable (npF g) MeasureTheory.volume 0 s := by
    apply ContinuousOn.intervalIntegrable
    apply (npF_continuousOn g s (by linarith)).mono
    intro x hx
    rcases Set.mem_uIcc.1 hx with hx | hx
    · exact ⟨by linarith [abs_nonneg s, hx.1], hx.2.trans (le_abs_self s)⟩
    · exact ⟨by linarith [neg_abs_le s, hx.1], hx.2.trans (abs_nonneg s)⟩
  have key : ∀ N, n ≤ N → |(∫ x in (0 : ℝ)..s, npF g x) - (s - ∑ j ∈ Finset.range (n + 1), npTerm g s j)| ≤
      2.4e-8 + 50 * (1 + s ^ 2) * |s| * ((N + 3) * 0.7 ^ (N + 1)) := by
    intro N hN
    have a1 : |(∫ x in (0 : ℝ)..s, npF g x) - ∫ x in (0 : ℝ)..s, npP g N x| ≤ 50 * (1 + s ^ 2) * ((N + 3) * 0.7 ^ (N + 1)) * |s - 0| := by
      rw [← intervalIntegral.integral_sub hint (by apply Continuous.intervalIntegrable; unfold npP; fun_prop)]
      rw [← Real.norm_eq_abs (∫ x in (0 : ℝ)..s, npF g x - npP g N x)]
      apply intervalIntegral.norm_integral_le_of_norm_le_const
      intro x hx
      rw [Real.norm_eq_abs]
      refine npF_sub_npP g s N hU x ?_
      rcases Set.mem_uIoc.1 hx with hx | hx
      · rw [abs_of_pos hx.1]; exact hx.2.trans (le_abs_self s)
      · rw [abs_of_nonpos hx.2]; linarith [neg_abs_le s, hx.1]
    rw [npP_integral, sub_zero] at a1
    have a2 : |∑ j ∈ Finset.range (N + 1), npTerm g s j - ∑ j ∈ Finset.range (n + 1), npTerm g s j| ≤ 2.4e-8 := by
      rw [← Finset.sum_Ico_eq_sub _ (by omega : n + 1 ≤ N + 1)]
      refine (Finset.abs_sum_le_sum_abs _ _).trans ?_
      have t1 : ∀ j ∈ Finset.Ico (n + 1) (N + 1), |npTerm g s j| ≤ 1e-8 * 0.7 * 0.7 ^ (j - (n + 1)) := by
        intro j hj
        rw [Finset.mem_Ico] at hj
        refine (npTerm_le g s hg j).trans ?_
        obtain ⟨k, rfl⟩ : ∃ k, j = n + 1 + k := ⟨j - (n + 1), by omega⟩
        rw [add_tsub_cancel_left, pow_add (|g| * s ^ 2), pow_succ (|g| * s ^ 2), ← mul_assoc, ← mul_assoc]
        have hU0 : 0 ≤ |g| * s ^ 2 := by positivity
        apply mul_le_mul _ (pow_le_pow_left₀ hU0 hU k) (by positivity) (by positivity)
        exact mul_le_mul hn hU hU0 (by norm_num)
      refine (Finset.sum_le_sum t1).trans ?_
      rw [Finset.sum_Ico_eq_sum_range, ← Finset.mul_sum]
      simp only [add_tsub_cancel_left]
      rw [geom_sum_eq (by norm_num)]
      have : (0 : ℝ) ≤ 0.7 ^ (N + 1 - (n + 1)) := by positivity
      rw [← neg_div_neg_eq, mul_div_assoc', div_le_iff₀ (by norm_num)]
      norm_num
      have h7 : (0 : ℝ) ≤ (7 / 10) ^ (N + 1 - (n + 1)) := by positivity
      linarith
    have := abs_sub_le (∫ x in (0 : ℝ)..s, npF g x) (s - ∑ j ∈ Finset.range (N + 1), npTerm g s j) (s - ∑ j ∈ Finset.range (n + 1), npTerm g s j)
    have e : (s - ∑ j ∈ Finset.range (N + 1), npTerm g s j) - (s - ∑ j ∈ Finset.range (n + 1), npTerm g s j) =
        -(∑ j ∈ Finset.range (N + 1), npTerm g s j - ∑ j ∈ Finset.range (n + 1), npTerm g s j) := by ring
    rw [e, abs_neg] at this
    linarith
  have lim : Tendsto (fun N : ℕ => 2.4e-8 + 50 * (1 + s ^ 2) * |s| * (((N : ℝ) + 3) * 0.7 ^ (N + 1))) atTop (𝓝 (2.4e-8 + 50 * (1 + s ^ 2) * |s| * 0)) := by
    apply Tendsto.const_add
    apply Tendsto.const_mul
    have l1 : Tendsto (fun N : ℕ => (N : ℝ) * 0.7 ^ N) atTop (𝓝 0) := tendsto_self_mul_const_pow_of_lt_one (by norm_num) (by norm_num)
    have l2 : Tendsto (fun N : ℕ => (0.7 : ℝ) ^ N) atTop (𝓝 0) := tendsto_pow_atTop_nhds_zero_of_lt_one (by norm_num) (by norm_num)
    have := (l1.const_mul 0.7).add (l2.const_mul (3 * 0.7))
    rw [mul_zero, mul_zero, add_zero] at this
    refine this.congr ?_
    intro N; rw [pow_succ]; ring
  rw [mul_zero, add_zero] at lim
  refine ge_of_tendsto lim ?_
  filter_upwards [eventually_ge_atTop n] with N hN using key N hN

end Verif.Lemmas
