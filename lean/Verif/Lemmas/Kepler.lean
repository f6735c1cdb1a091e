import Verif.Model.Kepler
import Verif.Lemmas.Iterate
import Mathlib.Analysis.SpecialFunctions.Trigonometric.Bounds
import Mathlib.Tactic.LinearCombination

namespace Verif.Lemmas

open Verif.Go Real Verif.Model.Iterate Verif.Model.Kepler

theorem kepler_mono {e a b : ℝ} (h0 : 0 ≤ e) (h1 : e < 1) (h : a < b) : a - e * sin a < b - e * sin b := by
  have := abs_sin_sub_sin_le b a
  rw [abs_of_pos (sub_pos.2 h)] at this
  have h2 := le_abs_self (sin b - sin a)
  nlinarith

theorem kepler_exists {e MR : ℝ} (hM0 : 0 ≤ MR) (hM1 : MR ≤ π) :
    ∃ E, 0 ≤ E ∧ E ≤ π ∧ E - e * sin E = MR := by
  have hc : ContinuousOn (fun E => E - e * sin E) (Set.Icc 0 π) :=
    (continuous_id.sub (continuous_const.mul continuous_sin)).continuousOn
  have := intermediate_value_Icc pi_pos.le hc
  obtain ⟨E, hE, he⟩ := this (show MR ∈ Set.Icc _ _ by simpa using ⟨hM0, hM1⟩)
  exact ⟨E, hE.1, hE.2, he⟩

theorem kepler3Loop_spec {e MR Es : ℝ} (h0 : 0 ≤ e) (h1 : e < 1) (hE : Es - e * sin Es = MR)
    (n : ℕ) (E0 d : ℝ) (hd : |Es - E0| ≤ 2 * d) :
    |kepler3Loop e MR n E0 d - Es| ≤ 2 * d / 2 ^ n := by
  induction n generalizing E0 d with
  | zero => simp only [kepler3Loop, pow_zero, div_one]; rw [abs_sub_comm]; exact hd
  | succ n ih =>
    unfold kepler3Loop
    dsimp only
    have hw : 2 * (d * 0.5) / 2 ^ n = 2 * d / 2 ^ (n + 1) := by rw [pow_succ]; norm_num; ring
    rw [abs_le] at hd
    split_ifs with hs
    · have hlt : Es < E0 := by
        by_contra hge
        push Not at hge
        rcases hge.lt_or_eq with hlt | heq
        · have := kepler_mono h0 h1 hlt; linarith
        · rw [heq] at hs; linarith
      rw [← hw]
      apply ih
      rw [abs_le]; constructor <;> norm_num <;> linarith
    · have hge : E0 ≤ Es := by
        by_contra hlt
        push Not at hlt
        have := kepler_mono h0 h1 hlt
        linarith
      rw [← hw]
      apply ih
      rw [abs_le]; constructor <;> norm_num <;> linarith

theorem kepler3Loop_range (e MR : ℝ) (n : ℕ) (E0 d : ℝ) (hd : 0 ≤ d) (h1 : 2 * d ≤ E0) (h2 : E0 ≤ π - 2 * d) :
    0 ≤ kepler3Loop e MR n E0 d ∧ kepler3Loop e MR n E0 d ≤ π := by
  induction n generalizing E0 d with
  | zero => simp only [kepler3Loop]; constructor <;> linarith
  | succ n ih =>
    unfold kepler3Loop
    dsimp only
    split_ifs
    · exact ih _ _ (by norm_num; linarith) (by norm_num; linarith) (by norm_num; linarith)
    · exact ih _ _ (by norm_num; linarith) (by norm_num; linarith) (by norm_num; linarith)

/-- Second order remainder of the sine. -/
theorem sin_remainder {x d : ℝ} (hd : |d| ≤ 1) : |sin (x + d) - sin x - d * cos x| ≤ d ^ 2 := by
  have e : sin (x + d) - sin x - d * cos x = sin x * (cos d - 1) + cos x * (sin d - d) := by rw [sin_add]; ring
  rw [e]
  have t := abs_add_le (sin x * (cos d - 1)) (cos x * (sin d - d))
  rw [abs_mul, abs_mul] at t
  have c1 : |cos d - 1| ≤ d ^ 2 / 2 := by
    rw [abs_le]; constructor
    · linarith [one_sub_sq_div_two_le_cos (x := d)]
    · nlinarith [cos_le_one d, sq_nonneg d]
  have c2 : |sin d - d| ≤ d ^ 2 / 2 := by
    have b := sin_bound hd
    have h0 := abs_nonneg d
    have hsq : d ^ 2 = |d| ^ 2 := (sq_abs d).symm
    have h3 : |d ^ 3| ≤ |d| ^ 2 := by
      rw [abs_pow]; nlinarith [sq_nonneg |d|]
    have h5 : |d| ^ 5 ≤ |d| ^ 2 := pow_le_pow_of_le_one h0 hd (by norm_num)
    have t2 := abs_add_le (sin d - (d - d ^ 3 / 6)) (-(d ^ 3 / 6))
    rw [show sin d - (d - d ^ 3 / 6) + -(d ^ 3 / 6) = sin d - d by ring, abs_neg, abs_div] at t2
    norm_num at t2
    rw [hsq]
    nlinarith [sq_nonneg |d|]
  have s1 := abs_sin_le_one x
  have s2 := abs_cos_le_one x
  nlinarith [abs_nonneg (cos d - 1), abs_nonneg (sin d - d)]

/-- A Newton step reduces the residual quadratically. -/
theorem newton_residual {e M s d : ℝ} (h0 : 0 ≤ e) (h1 : e < 1) (hd : |d| ≤ 1)
    (hs : d = (M + e * sin s - s) / (1 - e * cos s)) :
    |(s + d) - e * sin (s + d) - M| ≤ e * d ^ 2 := by
  have hpos : 0 < 1 - e * cos s := by nlinarith [cos_le_one s]
  rw [eq_div_iff hpos.ne'] at hs
  have e1 : (s + d) - e * sin (s + d) - M = -(e * (sin (s + d) - sin s - d * cos s)) := by linear_combination hs
  rw [e1, abs_neg, abs_mul, abs_of_nonneg h0]
  exact mul_le_mul_of_nonneg_left (sin_remainder hd) h0

end Verif.Lemmas
