import Verif.Lemmas.Interp
import Mathlib.Analysis.Calculus.Deriv.Pow
import Mathlib.Analysis.Calculus.Deriv.Polynomial
import Mathlib.Analysis.Calculus.Deriv.Comp
import Mathlib.Analysis.Calculus.Deriv.Mul
import Mathlib.Analysis.Calculus.Deriv.Add

namespace Verif.Lemmas

open Verif.Go Verif.Model Verif.Model.Interp

theorem iterateLoop_sound (f : EF → EF) (fuel : ℕ) (x0 : ℝ) (r : EF)
    (h : iterateLoop f fuel (.fin x0) = some r) :
    ∃ a b : ℝ, r = .fin b ∧ f (.fin a) = .fin b ∧ a ≠ 0 ∧ |(b - a) / a| < 1 / 10 ^ 15 := by
  induction fuel generalizing x0 with
  | zero => simp [iterateLoop] at h
  | succ n ih =>
    unfold iterateLoop at h
    cases hf : f (.fin x0) with
    | fin b =>
      simp only [hf, EF.notFinite_fin, if_false, EF.fin_sub] at h
      split_ifs at h with ht
      · injection h with h
        rw [hf, EF.fin_sub, EF.abs_div_lt] at ht
        exact ⟨x0, b, h.symm, hf, ht.1, ht.2⟩
      · exact ih b h
    | inf s => simp [hf] at h
    | nan => simp [hf] at h

theorem iterateLoop_notFinite (f : EF → EF) (fuel : ℕ) (x0 : EF) (h : (f x0).NotFinite) :
    iterateLoop f fuel x0 = none := by
  cases fuel with
  | zero => rfl
  | succ n => unfold iterateLoop; simp [h]

/-- A contraction on `[l, u]`, `l > 0`, makes the loop succeed. -/
theorem iterateLoop_contract (f : EF → EF) (g : ℝ → ℝ) (l u L : ℝ) (hl : 0 < l) (hL : 0 ≤ L)
    (hf : ∀ x, l ≤ x → x ≤ u → f (.fin x) = .fin (g x))
    (hm : ∀ x, l ≤ x → x ≤ u → l ≤ g x ∧ g x ≤ u)
    (hlip : ∀ x y, l ≤ x → x ≤ u → l ≤ y → y ≤ u → |g x - g y| ≤ L * |x - y|)
    (m fuel : ℕ) (x : ℝ) (h1 : l ≤ x) (h2 : x ≤ u) (hlt : |g x - x| * L ^ m < l / 10 ^ 15) (hfu : m < fuel) :
    ∃ y, l ≤ y ∧ y ≤ u ∧ iterateLoop f fuel (.fin x) = some (.fin y) := by
  induction m generalizing fuel x with
  | zero =>
    obtain ⟨k, rfl⟩ : ∃ k, fuel = k + 1 := ⟨fuel - 1, by omega⟩
    refine ⟨g x, (hm x h1 h2).1, (hm x h1 h2).2, ?_⟩
    unfold iterateLoop
    have hx : 0 < x := lt_of_lt_of_le hl h1
    have : EF.abs ((EF.fin (g x) - EF.fin x) / EF.fin x) < .fin (1 / 10 ^ 15) := by
      rw [EF.fin_sub, EF.abs_div_lt]
      refine ⟨hx.ne', ?_⟩
      rw [abs_div, abs_of_pos hx, div_lt_iff₀ hx]
      simp only [pow_zero, mul_one] at hlt
      have : l / 10 ^ 15 ≤ 1 / 10 ^ 15 * x := by
        rw [div_eq_mul_one_div, mul_comm]
        exact mul_le_mul_of_nonneg_left h1 (by norm_num)
      linarith
    simp only [hf x h1 h2, EF.notFinite_fin, if_false, this, if_true]
  | succ m ih =>
    obtain ⟨k, rfl⟩ : ∃ k, fuel = k + 1 := ⟨fuel - 1, by omega⟩
    unfold iterateLoop
    simp only [hf x h1 h2, EF.notFinite_fin, if_false]
    split_ifs with ht
    · exact ⟨g x, (hm x h1 h2).1, (hm x h1 h2).2, rfl⟩
    · apply ih k (g x) (hm x h1 h2).1 (hm x h1 h2).2 _ (by omega)
      have h3 := hlip (g x) x (hm x h1 h2).1 (hm x h1 h2).2 h1 h2
      have h4 : |g (g x) - g x| * L ^ m ≤ L * |g x - x| * L ^ m :=
        mul_le_mul_of_nonneg_right h3 (pow_nonneg hL m)
      calc |g (g x) - g x| * L ^ m ≤ L * |g x - x| * L ^ m := h4
        _ = |g x - x| * L ^ (m + 1) := by ring
        _ < _ := hlt

theorem tol_bounds {a b r : ℝ} (ha : a ≠ 0) (h : |(b - a) / a| < 1 / 10 ^ 15) (hr : 0 ≤ r) (hb : |b| ≤ r) :
    |b - a| ≤ 2 * r / 10 ^ 15 ∧ |a| ≤ 1.0001 * r := by
  have hp := abs_pos.2 ha
  rw [abs_div, div_lt_iff₀ hp] at h
  have h1 : |a| ≤ |b| + |b - a| := by
    have := abs_sub_abs_le_abs_sub a b
    rw [abs_sub_comm] at this
    linarith
  constructor
  · norm_num at h ⊢; linarith
  · norm_num at h ⊢; linarith

theorem pow_diff_bounds {a b δ r : ℝ} (hd : |b - a| ≤ δ) (ha : |a| ≤ r) (hb : |b| ≤ r) :
    |b ^ 2 - a ^ 2| ≤ δ * (2 * r) ∧ |b ^ 3 - a ^ 3| ≤ δ * (3 * r ^ 2) ∧ |b ^ 4 - a ^ 4| ≤ δ * (4 * r ^ 3) := by
  have hr : 0 ≤ r := (abs_nonneg a).trans ha
  have hδ : 0 ≤ δ := (abs_nonneg _).trans hd
  have aa := abs_nonneg a
  have bb := abs_nonneg b
  refine ⟨?_, ?_, ?_⟩
  · rw [show b ^ 2 - a ^ 2 = (b - a) * (b + a) by ring, abs_mul]
    refine mul_le_mul hd ?_ (abs_nonneg _) hδ
    exact (abs_add_le _ _).trans (by linarith)
  · rw [show b ^ 3 - a ^ 3 = (b - a) * (b * b + b * a + a * a) by ring, abs_mul]
    refine mul_le_mul hd ?_ (abs_nonneg _) hδ
    have t1 := abs_add_le (b * b + b * a) (a * a)
    have t2 := abs_add_le (b * b) (b * a)
    rw [abs_mul] at t1 t2
    rw [abs_mul] at t2
    have u1 : |b| * |b| ≤ r * r := mul_le_mul hb hb bb hr
    have u2 : |b| * |a| ≤ r * r := mul_le_mul hb ha aa hr
    have u3 : |a| * |a| ≤ r * r := mul_le_mul ha ha aa hr
    nlinarith
  · rw [show b ^ 4 - a ^ 4 = (b - a) * ((b + a) * (b * b + a * a)) by ring, abs_mul]
    refine mul_le_mul hd ?_ (abs_nonneg _) hδ
    rw [abs_mul]
    have t1 := abs_add_le b a
    have t2 := abs_add_le (b * b) (a * a)
    rw [abs_mul, abs_mul] at t2
    have u1 : |b| * |b| ≤ r * r := mul_le_mul hb hb bb hr
    have u3 : |a| * |a| ≤ r * r := mul_le_mul ha ha aa hr
    calc |b + a| * |b * b + a * a| ≤ (2 * r) * (2 * (r * r)) :=
          mul_le_mul (by linarith) (by linarith) (abs_nonneg _) (by linarith)
      _ = 4 * r ^ 3 := by ring

end Verif.Lemmas
