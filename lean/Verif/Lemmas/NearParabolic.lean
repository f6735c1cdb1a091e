import Verif.Lemmas.Orbits
import Mathlib.Topology.Order.IntermediateValue
import Mathlib.Topology.Algebra.Order.Field
import Mathlib.Topology.Instances.Real.Lemmas
import Mathlib.Algebra.Order.Archimedean.Basic

namespace Verif.Lemmas

open Verif.Go Real Verif.Model.Orbits

theorem newtonLoop_mono (q3 : ℝ) (n m : ℕ) (x s : ℝ) (h : newtonLoop q3 n x = some s) (hnm : n ≤ m) :
    newtonLoop q3 m x = some s := by
  induction n generalizing m x with
  | zero => simp [newtonLoop] at h
  | succ n ih =>
    obtain ⟨m, rfl⟩ : ∃ m', m = m' + 1 := ⟨m - 1, by omega⟩
    unfold newtonLoop at h ⊢
    dsimp only at h ⊢
    split_ifs at h ⊢ with hc
    · exact h
    · exact ih m _ h (by omega)

theorem newtonStep_neg (q3 x : ℝ) : newtonStep (-q3) (-x) = -newtonStep q3 x := by
  unfold newtonStep; rw [← neg_div]; congr 1 <;> ring

theorem newtonLoop_neg (q3 : ℝ) (n : ℕ) (x : ℝ) : newtonLoop (-q3) n (-x) = (newtonLoop q3 n x).map fun s => -s := by
  induction n generalizing x with
  | zero => rfl
  | succ n ih =>
    unfold newtonLoop
    dsimp only
    rw [newtonStep_neg, show -newtonStep q3 x - -x = -(newtonStep q3 x - x) by ring, abs_neg]
    split_ifs
    · rfl
    · exact ih _

theorem cubic_root (q3 : ℝ) : ∃ r : ℝ, r ^ 3 / 3 + r = q3 := by
  have hc : Continuous fun r : ℝ => r ^ 3 / 3 + r := by fun_prop
  have h1 : -|q3| ≤ |q3| := by linarith [abs_nonneg q3]
  have := intermediate_value_Icc h1 hc.continuousOn
  have hp : 0 ≤ |q3| ^ 3 := by positivity
  obtain ⟨r, -, hr⟩ := this (show q3 ∈ Set.Icc _ _ from ⟨by
    have := neg_abs_le q3
    have e : (-|q3|) ^ 3 = -(|q3| ^ 3) := by ring
    simp only [e]; linarith, by
    have := le_abs_self q3
    linarith⟩)
  exact ⟨r, hr⟩

theorem newtonStep_sub_root {q3 r : ℝ} (hr : r ^ 3 / 3 + r = q3) (x : ℝ) :
    newtonStep q3 x - r = (x - r) ^ 2 * (2 * x + r) / (3 * (x * x + 1)) := by
  have : 0 < x * x + 1 := by nlinarith [mul_self_nonneg x]
  unfold newtonStep; rw [← hr]; field_simp; ring

theorem newtonStep_sub_self {q3 r : ℝ} (hr : r ^ 3 / 3 + r = q3) (x : ℝ) :
    newtonStep q3 x - x = (r - x) * ((r ^ 2 + r * x + x ^ 2) / 3 + 1) / (x * x + 1) := by
  have : 0 < x * x + 1 := by nlinarith [mul_self_nonneg x]
  unfold newtonStep; rw [← hr]; field_simp; ring

/-- Above a non-negative root the iteration decreases and ends. -/
theorem newton_phaseB {q3 r : ℝ} (hr : r ^ 3 / 3 + r = q3) (h0 : 0 ≤ r) (n : ℕ) (x : ℝ) (hx : r ≤ x)
    (hn : x - r ≤ n * 1e-9) : ∃ s, newtonLoop q3 (n + 1) x = some s := by
  have hden : ∀ x : ℝ, 0 < x * x + 1 := fun x => by nlinarith [mul_self_nonneg x]
  have hge : ∀ x, r ≤ x → r ≤ newtonStep q3 x := by
    intro x hx
    have := newtonStep_sub_root hr x
    have h2 : 0 ≤ (x - r) ^ 2 * (2 * x + r) / (3 * (x * x + 1)) :=
      div_nonneg (mul_nonneg (sq_nonneg _) (by linarith)) (by linarith [hden x])
    linarith
  have hle : ∀ x, r ≤ x → newtonStep q3 x ≤ x := by
    intro x hx
    have := newtonStep_sub_self hr x
    have h2 : (r - x) * ((r ^ 2 + r * x + x ^ 2) / 3 + 1) / (x * x + 1) ≤ 0 := by
      apply div_nonpos_of_nonpos_of_nonneg _ (hden x).le
      apply mul_nonpos_of_nonpos_of_nonneg (by linarith)
      nlinarith [sq_nonneg (r + x)]
    linarith
  induction n generalizing x with
  | zero =>
    have hxr : x = r := by simp at hn; linarith
    have := hge x hx
    have := hle x hx
    refine ⟨newtonStep q3 x, ?_⟩
    unfold newtonLoop
    dsimp only
    rw [if_pos]
    rw [abs_le]; constructor <;> linarith
  | succ n ih =>
    have h1 := hge x hx
    have h2 := hle x hx
    unfold newtonLoop
    dsimp only
    split_ifs with hc
    · exact ⟨_, rfl⟩
    · rw [abs_of_nonpos (by linarith)] at hc
      push Not at hc
      apply ih _ h1
      push_cast at hn
      linarith

/-- Below a non-negative root the iteration increases until it passes the root or ends. -/
theorem newton_phaseA {q3 r : ℝ} (hr : r ^ 3 / 3 + r = q3) (h0 : 0 ≤ r) (n : ℕ) (x : ℝ)
    (hn : r - x ≤ n * 1e-9) : ∃ m s, newtonLoop q3 m x = some s := by
  have hden : ∀ x : ℝ, 0 < x * x + 1 := fun x => by nlinarith [mul_self_nonneg x]
  have hB : ∀ x, r ≤ x → ∃ m s, newtonLoop q3 m x = some s := by
    intro x hx
    obtain ⟨k, hk⟩ := exists_nat_ge ((x - r) / 1e-9)
    rw [div_le_iff₀ (by norm_num)] at hk
    obtain ⟨s, hs⟩ := newton_phaseB hr h0 k x hx hk
    exact ⟨_, s, hs⟩
  induction n generalizing x with
  | zero => exact hB x (by simp at hn; linarith)
  | succ n ih =>
    rcases le_or_gt r x with hx | hx
    · exact hB x hx
    have h1 := newtonStep_sub_self hr x
    have h2 : 0 ≤ (r - x) * ((r ^ 2 + r * x + x ^ 2) / 3 + 1) / (x * x + 1) := by
      apply div_nonneg _ (hden x).le
      apply mul_nonneg (by linarith)
      nlinarith [sq_nonneg (r + x), sq_nonneg r, sq_nonneg x]
    by_cases hc : |newtonStep q3 x - x| ≤ 1e-9
    · refine ⟨1, newtonStep q3 x, ?_⟩
      unfold newtonLoop
      dsimp only
      rw [if_pos hc]
    · have hc' := hc
      rw [abs_of_nonneg (by linarith)] at hc'
      push Not at hc'
      obtain ⟨m, s, hm⟩ := ih (newtonStep q3 x) (by push_cast at hn; linarith)
      refine ⟨m + 1, s, ?_⟩
      unfold newtonLoop
      dsimp only
      rw [if_neg hc]
      exact hm

theorem newton_terminates (q3 x : ℝ) : ∃ m s, newtonLoop q3 m x = some s := by
  have key : ∀ q3 x r : ℝ, r ^ 3 / 3 + r = q3 → 0 ≤ r → ∃ m s, newtonLoop q3 m x = some s := by
    intro q3 x r hr h0
    obtain ⟨k, hk⟩ := exists_nat_ge ((r - x) / 1e-9)
    rw [div_le_iff₀ (by norm_num)] at hk
    exact newton_phaseA hr h0 k x hk
  obtain ⟨r, hr⟩ := cubic_root q3
  rcases le_total 0 r with h | h
  · exact key q3 x r hr h
  · obtain ⟨m, s, hm⟩ := key (-q3) (-x) (-r) (by rw [← hr]; ring) (by linarith)
    rw [newtonLoop_neg] at hm
    cases hx : newtonLoop q3 m x with
    | none => rw [hx] at hm; simp at hm
    | some s' => exact ⟨m, s', hx⟩

theorem outer_terminates (q2 g : ℝ) (fuel l : ℕ) (s0 : ℝ) :
    ∃ n0 res, res ≠ LoopResult.running ∧ ∀ n, n0 ≤ n → outerLoop q2 g n fuel l s0 = res := by
  induction fuel generalizing l s0 with
  | zero => exact ⟨0, .noConvergence, by simp, fun _ _ => rfl⟩
  | succ fuel ih =>
    cases hs : seriesLoop g (s0 * s0) 50 1 (-(s0 * s0) * s0) (q2 + 2 * g * s0 * (s0 * s0) / 3) with
    | none => exact ⟨0, .noConvergence, by simp, fun n _ => by unfold outerLoop; dsimp only; rw [hs]⟩
    | some q3 =>
      by_cases hl : l + 1 > 50
      · exact ⟨0, .noConvergence, by simp, fun n _ => by unfold outerLoop; dsimp only; rw [hs]; dsimp only; rw [if_pos hl]⟩
      · obtain ⟨m, s, hm⟩ := newton_terminates q3 s0
        by_cases hc : |s - s0| ≤ 1e-9
        · refine ⟨m, .done s, by simp, fun n hn => ?_⟩
          unfold outerLoop; dsimp only; rw [hs]; dsimp only; rw [if_neg hl, newtonLoop_mono q3 m n s0 s hm hn]
          dsimp only; rw [if_pos hc]
        · obtain ⟨n1, res, hres, h1⟩ := ih (l + 1) s
          refine ⟨max m n1, res, hres, fun n hn => ?_⟩
          unfold outerLoop; dsimp only; rw [hs]; dsimp only
          rw [if_neg hl, newtonLoop_mono q3 m n s0 s hm (le_trans (le_max_left _ _) hn)]
          dsimp only; rw [if_neg hc]
          exact h1 n (le_trans (le_max_right _ _) hn)

end Verif.Lemmas
