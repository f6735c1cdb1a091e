import Verif.Model.Eclipse
import Verif.Lemmas.Series

/-! Inequalities on the shadow axis. -/

namespace Verif.Lemmas.Eclipse

open Verif.Model Verif.Model.Eclipse Real

/-- A term of two bounded factors. -/
theorem mul_bd {p q P Q : ℝ} (hp : |p| ≤ P) (hq : |q| ≤ Q) : |p * q| ≤ P * Q := by
  rw [abs_mul]; exact mul_le_mul hp hq (abs_nonneg _) ((abs_nonneg _).trans hp)

theorem unit_bd {a b : ℝ} (h : a ^ 2 + b ^ 2 = 1) : |a| ≤ 1 ∧ |b| ≤ 1 := by
  constructor <;> rw [abs_le] <;> constructor <;> nlinarith

/-- P without its last term, and Q and u, in sines and cosines of M (a, b) and M' (x, y). -/
def P' (E a b x y : ℝ) : ℝ := 0.207 * a * E + 0.0048 * a * b * E - 0.0392 * x + 0.0232 * x * y - 0.0006 * x * b * E - 0.014 * y * a * E
def Q' (E a b x y : ℝ) : ℝ := 5.2207 - 0.0048 * b * E + 0.002 * (b ^ 2 - a ^ 2) * E - 0.3299 * y - 0.0019 * b * y * E + 0.0101 * a * x * E
def u' (E a b x y : ℝ) : ℝ := 0.0059 + 0.0046 * b * E - 0.0182 * y + 0.0004 * (2 * y ^ 2 - 1) - 0.0005 * (b * y - a * x)

set_option maxHeartbeats 2000000 in
theorem core (E a b x y : ℝ) (hE : 0.9 ≤ E) (hE' : E ≤ 1.07) (hab : a ^ 2 + b ^ 2 = 1) (hxy : x ^ 2 + y ^ 2 = 1) :
    1.5573 + u' E a b x y < 0.9952 * (0.3595 * Q' E a b x y + 0.9332 * P' E a b x y) := by
  obtain ⟨ha, hb⟩ := unit_bd hab
  obtain ⟨hx, hy⟩ := unit_bd hxy
  have hEa : |E| ≤ 1.07 := by rw [abs_le]; constructor <;> norm_num at * <;> linarith
  have hyE := mul_bd hy hEa
  have hxE := mul_bd hx hEa
  have hbE := mul_bd hb hEa
  have haE := mul_bd ha hEa
  -- coefficients of a and b
  obtain ⟨A, hA⟩ : ∃ A, A = 0.9952 * 0.9332 * 0.207 * E - 0.9952 * 0.9332 * 0.014 * (y * E) + 0.9952 * 0.3595 * 0.0101 * (x * E) - 0.0005 * x := ⟨_, rfl⟩
  obtain ⟨B, hB⟩ : ∃ B, B = -(0.9952 * 0.3595 * 0.0048) * E - 0.0046 * E - 0.9952 * 0.3595 * 0.0019 * (y * E) - 0.9952 * 0.9332 * 0.0006 * (x * E) + 0.0005 * y +
      0.9952 * 0.9332 * 0.0048 * (a * E) := ⟨_, rfl⟩
  have hApos : 0.15 ≤ A := by
    rw [hA]; rw [abs_le] at hyE hxE hx; norm_num at *; linarith [hyE.1, hyE.2, hxE.1, hxE.2, hx.1, hx.2]
  have hBb : |B| ≤ 0.0135 := by
    rw [hB, abs_le]; rw [abs_le] at hyE hxE hx haE hy
    constructor <;> norm_num at * <;> linarith [hyE.1, hyE.2, hxE.1, hxE.2, hx.1, hx.2, haE.1, haE.2, hy.1, hy.2]
  have key : -0.00062 ≤ A * (1 + a) + B * b := by
    have h1 : b ^ 2 ≤ 2 * (1 + a) := by rw [abs_le] at ha; nlinarith [ha.1, ha.2]
    have h2 : |B * b| ≤ 0.0135 * |b| := by rw [abs_mul]; exact mul_le_mul_of_nonneg_right hBb (abs_nonneg _)
    have h3 : |b| ^ 2 = b ^ 2 := sq_abs b
    have h4 := (abs_le.1 h2).1
    have h5 : 0.15 * (1 + a) ≤ A * (1 + a) := mul_le_mul_of_nonneg_right hApos (by nlinarith [sq_nonneg b])
    have h6 := sq_nonneg (|b| - 0.09)
    clear * - h1 h3 h4 h5 h6
    norm_num at h1 h4 h5 h6 ⊢
    nlinarith
  have expand : 0.9952 * (0.3595 * Q' E a b x y + 0.9332 * P' E a b x y) - (1.5573 + u' E a b x y) =
      (A * (1 + a) + B * b) - A + (0.9952 * 0.3595 * 5.2207 - 1.5573 - 0.0059) + 0.9952 * 0.3595 * 0.002 * (b ^ 2 - a ^ 2) * E -
      (0.9952 * 0.3595 * 0.3299 - 0.0182) * y - 0.9952 * 0.9332 * 0.0392 * x + 0.9952 * 0.9332 * 0.0232 * (x * y) - 0.0004 * (2 * y ^ 2 - 1) := by
    rw [hA, hB]; unfold Q' P' u'; ring
  have h5 : -1.07 ≤ (b ^ 2 - a ^ 2) * E := by
    have : -1 ≤ b ^ 2 - a ^ 2 := by nlinarith [sq_nonneg b]
    have h0 : 0 ≤ E := by norm_num at hE; linarith
    have := mul_le_mul_of_nonneg_right this h0
    linarith
  have h6 : 2 * y ^ 2 - 1 ≤ 1 := by nlinarith [sq_nonneg x]
  have h7 : x - (1 - y) ≤ x * y := by rw [abs_le] at hx hy; nlinarith [hx.1, hx.2, hy.1, hy.2]
  -- the part with E is largest for E = 1.07
  have h8 : A ≤ 0.9952 * 0.9332 * 0.207 * 1.07 - 0.9952 * 0.9332 * 0.014 * 1.07 * y + 0.9952 * 0.3595 * 0.0101 * 1.07 * x - 0.0005 * x := by
    rw [hA]
    rw [abs_le] at hx hy
    have : 0 ≤ (1.07 - E) * (0.9952 * 0.9332 * 0.207 - 0.9952 * 0.9332 * 0.014 * y + 0.9952 * 0.3595 * 0.0101 * x) := by
      apply mul_nonneg (by linarith)
      norm_num; linarith [hx.1, hx.2, hy.1, hy.2]
    linarith
  have h9 : 0.06436 * y + 0.0184 * x ≤ 0.067 := by
    have : (0.06436 * y + 0.0184 * x) ^ 2 ≤ 0.067 ^ 2 := by
      have e : (0.06436 * y + 0.0184 * x) ^ 2 = (0.06436 ^ 2 + 0.0184 ^ 2) * (x ^ 2 + y ^ 2) - (0.0184 * y - 0.06436 * x) ^ 2 := by ring
      rw [e, hxy]; have := sq_nonneg (0.0184 * y - 0.06436 * x); norm_num at this ⊢; linarith
    exact (abs_le_of_sq_le_sq' this (by norm_num)).2
  clear * - expand key h5 h6 h7 h8 h9 hy
  rw [abs_le] at hy
  norm_num at expand key h5 h7 h8 h9 ⊢
  linarith [hy.1, hy.2]

end Verif.Lemmas.Eclipse
