import Verif.Model.Fit64
import Verif.Props.Coord64
/-
C197: the straight line through sample points in double precision.
-/
namespace Verif.Props

open Real Verif.Go Verif.Model Verif.Go.F64 Verif.Go.F64.Ex

/-- Sums over the points. -/
def fsum (p : List (ℝ × ℝ)) (g : ℝ → ℝ → ℝ) : ℝ := (p.map fun q => g q.1 q.2).sum

namespace Fit64v

open Fit64

theorem fl_tiny (x : ℝ) : |fl x - x| ≤ |x| / 2 ^ 53 + 1 / 2 ^ 500 := by
  rcases le_or_gt ((2 : ℝ) ^ (-1022 : ℤ)) |x| with h | h
  · have := fl_rel h
    rw [zpow_neg] at this
    have e : (2 : ℝ) ^ (53 : ℤ) = 2 ^ 53 := by norm_cast
    rw [e] at this
    have : (2 ^ 53)⁻¹ * |x| = |x| / 2 ^ 53 := by ring
    have : (0 : ℝ) < 1 / 2 ^ 500 := by positivity
    linarith
  · have := fl_near_lt (n := -1021) (x := x) (h.trans (by apply zpow_lt_zpow_right₀ <;> norm_num)) le_rfl
    have h2 : (2 : ℝ) ^ (-1021 - 54 : ℤ) ≤ 1 / 2 ^ 500 := by
      rw [show (1 : ℝ) / 2 ^ 500 = 2 ^ (-500 : ℤ) by rw [zpow_neg, one_div]; norm_cast]
      apply zpow_le_zpow_right₀ <;> norm_num
    have h3 : 0 ≤ |x| / 2 ^ 53 := by positivity
    exact (this.trans h2).trans (by linarith)

/-- What the terms of the sums may be: x, y or a product of two of them. -/
def Small (g : Ex) : Prop := (∃ i, g = v i) ∨ ∃ i j, g = v i * v j

theorem step_near {l : Trig} {ρ : ℕ → ℝ} {g : Ex} (hg : Small g) {x : ℝ} (h : Run l ρ (v 0 + g) x) :
    |x - (ρ 0 + g.val ρ)| ≤ (|ρ 0| + 3 * |g.val ρ|) / 2 ^ 53 + 3 / 2 ^ 500 := by
  have η : (0 : ℝ) < 1 / 2 ^ 500 := by positivity
  rw [show (3 : ℝ) / 2 ^ 500 = 3 * (1 / 2 ^ 500) by ring]
  have F := fl_tiny
  generalize (1 : ℝ) / 2 ^ 500 = η' at *
  have one : ∀ p w : ℝ, |fl (p + w) - (p + w)| ≤ (|p| + 3 * |w|) / 2 ^ 53 + 3 * η' := by
    intro p w
    have h2 := F (p + w)
    have h3 := abs_add_le p w
    have := abs_nonneg w
    norm_num at h2 ⊢
    linarith
  have two : ∀ p w : ℝ, |fl (p + fl w) - (p + w)| ≤ (|p| + 3 * |w|) / 2 ^ 53 + 3 * η' := by
    intro p w
    have h1 := F w
    have h2 := F (p + fl w)
    generalize fl w = m at *
    have h3 : |p + m| ≤ |p| + |w| + |m - w| := by
      rw [show p + m = p + w + (m - w) by ring]
      exact (abs_add_le _ _).trans (by have := abs_add_le p w; linarith)
    have h4 := abs_sub_le (fl (p + m)) (p + m) (p + w)
    rw [show p + m - (p + w) = m - w by ring] at h4
    have := abs_nonneg w
    norm_num at h1 h2 ⊢
    linarith
  rcases hg with ⟨i, rfl⟩ | ⟨i, j, rfl⟩
  · cases h with
    | add h1 h2 => cases h1; cases h2; exact one _ _
  · cases h with
    | add h1 h2 =>
      cases h1
      cases h2 with
      | mul h3 h4 => cases h3; cases h4; exact two _ _
    | addMul h1 h3 h4 => cases h1; cases h3; cases h4; exact one _ _

/-- A difference of two products, rounded in any way. -/
theorem diff_near {l : Trig} {ρ : ℕ → ℝ} {i j k m : ℕ} {x : ℝ} (h : Run l ρ (v i * v j - v k * v m) x) :
    |x - (ρ i * ρ j - ρ k * ρ m)| ≤ 3 * (|ρ i * ρ j| + |ρ k * ρ m|) / 2 ^ 53 + 4 / 2 ^ 500 := by
  have η : (0 : ℝ) < 1 / 2 ^ 500 := by positivity
  rw [show (4 : ℝ) / 2 ^ 500 = 4 * (1 / 2 ^ 500) by ring]
  have F := fl_tiny
  generalize (1 : ℝ) / 2 ^ 500 = η' at *
  have gen : ∀ p q a b : ℝ, |a - p| ≤ |p| / 2 ^ 53 + η' → |b - q| ≤ |q| / 2 ^ 53 + η' → |fl (a - b) - (p - q)| ≤ 3 * (|p| + |q|) / 2 ^ 53 + 4 * η' := by
    intro p q a b ha hb
    have h2 := F (a - b)
    have h3 : |a - b| ≤ |p| + |q| + |a - p| + |b - q| := by
      rw [show a - b = p + -q + (a - p) + -(b - q) by ring]
      have t1 := abs_add_le (p + -q + (a - p)) (-(b - q))
      have t2 := abs_add_le (p + -q) (a - p)
      have t3 := abs_add_le p (-q)
      rw [abs_neg] at t1 t3
      linarith
    have h4 : |fl (a - b) - (p - q)| ≤ |fl (a - b) - (a - b)| + |a - p| + |b - q| := by
      rw [show fl (a - b) - (p - q) = (fl (a - b) - (a - b)) + (a - p) + -(b - q) by ring]
      have t1 := abs_add_le ((fl (a - b) - (a - b)) + (a - p)) (-(b - q))
      have t2 := abs_add_le (fl (a - b) - (a - b)) (a - p)
      rw [abs_neg] at t1
      linarith
    have := abs_nonneg p
    have := abs_nonneg q
    norm_num at ha hb h2 ⊢
    linarith
  have triv : ∀ p : ℝ, |p - p| ≤ |p| / 2 ^ 53 + η' := by
    intro p; rw [sub_self, abs_zero]; positivity
  cases h with
  | sub h1 h2 =>
    cases h1 with
    | mul h3 h4 =>
      cases h2 with
      | mul h5 h6 => cases h3; cases h4; cases h5; cases h6; exact gen _ _ _ _ (F _) (F _)
  | subMul h1 h5 h6 =>
    cases h1 with
    | mul h3 h4 => cases h3; cases h4; cases h5; cases h6; exact gen _ _ _ _ (F _) (triv _)
  | mulSub h1 h3 h4 =>
    cases h1 with
    | mul h5 h6 => cases h3; cases h4; cases h5; cases h6; exact gen _ _ _ _ (triv _) (F _)

/-- The sum so far: error and size. -/
theorem acc_gen {l : Trig} {g : Ex} (hg : Small g) {M : ℝ} (p : List (ℝ × ℝ)) {s S G r : ℝ} {k : ℕ}
    (hk : k + p.length ≤ 1000) (hS : |S| ≤ G) (hM : G + (p.map fun q => |g.val (at3 0 q.1 q.2)|).sum ≤ M) (h0 : ∀ s x y, g.val (at3 s x y) = g.val (at3 0 x y))
    (he : |s - S| ≤ k * (1.01 / 2 ^ 53) * M + 3.1 / 2 ^ 53 * G + 4 * k / 2 ^ 500) (h : Acc l g s p r) :
    |r - (S + (p.map fun q => g.val (at3 0 q.1 q.2)).sum)| ≤ (k + p.length) * (1.01 / 2 ^ 53) * M + 3.1 / 2 ^ 53 * M + 4 * (k + p.length) / 2 ^ 500 := by
  induction p generalizing s S G k with
  | nil =>
    cases h
    simp at hM ⊢
    have : (3.1 : ℝ) / 2 ^ 53 * G ≤ 3.1 / 2 ^ 53 * M := by gcongr
    linarith
  | cons q p ih =>
    obtain ⟨s', hr, ha⟩ := h
    have n1 := step_near hg hr
    rw [h0] at n1
    simp only [at3] at n1
    rw [List.map_cons, List.sum_cons] at hM ⊢
    rw [← add_assoc] at hM
    rw [← add_assoc]
    set w := g.val (at3 0 q.1 q.2) with hw
    have p0 : 0 ≤ (p.map fun q => |g.val (at3 0 q.1 q.2)|).sum := List.sum_nonneg (by
      intro x hx
      obtain ⟨t, _, rfl⟩ := List.mem_map.mp hx
      positivity)
    have hk' : k + 1 + p.length ≤ 1000 := by rw [List.length_cons] at hk; omega
    have S' : |S + w| ≤ G + |w| := (abs_add_le _ _).trans (by linarith)
    have kb : (k : ℝ) ≤ 1000 := by exact_mod_cast (by omega : k ≤ 1000)
    have k0 : (0 : ℝ) ≤ k := Nat.cast_nonneg k
    have w0 := abs_nonneg w
    have G0 : 0 ≤ G := (abs_nonneg _).trans hS
    have M0 : G ≤ M := by linarith
    have s1 : |s| ≤ G + |s - S| := by
      have := abs_sub_abs_le_abs_sub s S; linarith
    have η : (0 : ℝ) < 1 / 2 ^ 500 := by positivity
    have kM : (k : ℝ) * M ≤ 1000 * M := mul_le_mul_of_nonneg_right kb (G0.trans M0)
    have kη : (k : ℝ) * (1 / 2 ^ 500) ≤ 1000 * (1 / 2 ^ 500) := by gcongr
    have e' : |s' - (S + w)| ≤ ((k + 1 : ℕ) : ℝ) * (1.01 / 2 ^ 53) * M + 3.1 / 2 ^ 53 * (G + |w|) + 4 * ((k + 1 : ℕ) : ℝ) / 2 ^ 500 := by
      have t := abs_sub_le s' (s + w) (S + w)
      rw [show s + w - (S + w) = s - S by ring] at t
      rw [show (4 : ℝ) * k / 2 ^ 500 = 4 * (k * (1 / 2 ^ 500)) by ring, show (k : ℝ) * (1.01 / 2 ^ 53) * M = 1.01 / 2 ^ 53 * (k * M) by ring] at he
      rw [show (3 : ℝ) / 2 ^ 500 = 3 * (1 / 2 ^ 500) by ring] at n1
      push_cast
      rw [show (4 : ℝ) * (k + 1) / 2 ^ 500 = 4 * (k * (1 / 2 ^ 500)) + 4 * (1 / 2 ^ 500) by ring,
        show ((k : ℝ) + 1) * (1.01 / 2 ^ 53) * M = 1.01 / 2 ^ 53 * (k * M) + 1.01 / 2 ^ 53 * M by ring]
      generalize (k : ℝ) * M = X1 at *
      generalize (k : ℝ) * (1 / 2 ^ 500) = X2 at *
      generalize (1 : ℝ) / 2 ^ 500 = X3 at *
      generalize |s' - (S + w)| = X4 at *
      generalize |s' - (s + w)| = X5 at *
      norm_num at he n1 ⊢
      linarith
    have := ih hk' S' hM e' ha
    rw [List.length_cons]
    push_cast at this ⊢
    rw [show (k : ℝ) + (p.length + 1) = k + 1 + p.length by ring]
    exact this

/-- A sum over the points. -/
theorem acc_near {l : Trig} {g : Ex} (hg : Small g) {p : List (ℝ × ℝ)} (hp : p.length ≤ 1000) {f : ℝ → ℝ → ℝ} (hf : ∀ s x y, g.val (at3 s x y) = f x y) {r : ℝ}
    (h : Acc l g 0 p r) : |r - fsum p f| ≤ (p.length + 4) * 1.15e-16 * fsum p (fun x y => |f x y|) + 1 / 2 ^ 485 := by
  have a := acc_gen (M := (p.map fun q => |g.val (at3 0 q.1 q.2)|).sum) hg p (s := 0) (S := 0) (G := 0) (k := 0) (by omega) (by simp) (by simp)
    (by intro s x y; rw [hf, hf]) (by simp) h
  simp only [hf, zero_add, Nat.cast_zero] at a
  refine a.trans ?_
  show _ ≤ _ * fsum p (fun x y => |f x y|) + _
  unfold fsum
  have M0 : 0 ≤ (p.map fun q => |f q.1 q.2|).sum := List.sum_nonneg (by
    intro x hx
    obtain ⟨t, _, rfl⟩ := List.mem_map.mp hx
    positivity)
  generalize (p.map fun q => |f q.1 q.2|).sum = M at *
  have n0 : (0 : ℝ) ≤ p.length := Nat.cast_nonneg _
  have n1 : (p.length : ℝ) ≤ 1000 := by exact_mod_cast hp
  generalize (p.length : ℝ) = n at *
  have t : 4 * n / 2 ^ 500 ≤ 1 / 2 ^ 485 := by
    rw [show (1 : ℝ) / 2 ^ 485 = 2 ^ 15 / 2 ^ 500 by rw [div_eq_div_iff (by positivity) (by positivity), one_mul, ← pow_add]]
    gcongr
    norm_num
    linarith
  have nM : 0 ≤ n * M := mul_nonneg n0 M0
  have : n * (1.01 / 2 ^ 53) * M + 3.1 / 2 ^ 53 * M ≤ (n + 4) * 1.15e-16 * M := by
    rw [show n * (1.01 / 2 ^ 53) * M = 1.01 / 2 ^ 53 * (n * M) by ring, show (n + 4) * 1.15e-16 * M = 1.15e-16 * (n * M) + 4 * 1.15e-16 * M by ring]
    generalize n * M = X at *
    norm_num
    linarith
  linarith

/-- A product of two sums with errors. -/
theorem prod_near {p q p' q' P Q κ t : ℝ} (hκ0 : 0 ≤ κ) (hκ : κ ≤ 1 / 1000000) (ht0 : 0 ≤ t) (ht : t ≤ 1 / 1000000) (hp : |p| ≤ P) (hq : |q| ≤ Q) (hp' : |p' - p| ≤ κ * P + t)
    (hq' : |q' - q| ≤ κ * Q + t) : |p' * q' - p * q| ≤ 2.001 * κ * (P * Q) + 2 * t * (P + Q + 1) ∧ |p' * q'| ≤ 1.001 * (P * Q) + 2 * t * (P + Q + 1) := by
  have P0 : 0 ≤ P := (abs_nonneg _).trans hp
  have Q0 : 0 ≤ Q := (abs_nonneg _).trans hq
  have PQ : 0 ≤ P * Q := mul_nonneg P0 Q0
  have a1 : |p * (q' - q)| ≤ P * (κ * Q + t) := by rw [abs_mul]; exact mul_le_mul hp hq' (abs_nonneg _) P0
  have a2 : |q * (p' - p)| ≤ Q * (κ * P + t) := by rw [abs_mul]; exact mul_le_mul hq hp' (abs_nonneg _) Q0
  have a3 : |(p' - p) * (q' - q)| ≤ (κ * P + t) * (κ * Q + t) := by rw [abs_mul]; exact mul_le_mul hp' hq' (abs_nonneg _) (by positivity)
  have a4 : |p' * q' - p * q| ≤ 2.001 * κ * (P * Q) + 2 * t * (P + Q + 1) := by
    rw [show p' * q' - p * q = p * (q' - q) + q * (p' - p) + (p' - p) * (q' - q) by ring]
    have t1 := abs_add_le (p * (q' - q) + q * (p' - p)) ((p' - p) * (q' - q))
    have t2 := abs_add_le (p * (q' - q)) (q * (p' - p))
    have b1 : κ * (κ * (P * Q)) ≤ 1 / 1000000 * (κ * (P * Q)) := mul_le_mul_of_nonneg_right hκ (by positivity)
    have b2 : κ * (t * (P + Q)) ≤ 1 / 1000000 * (t * (P + Q)) := mul_le_mul_of_nonneg_right hκ (by positivity)
    have b3 : t * t ≤ 1 / 1000000 * t := mul_le_mul_of_nonneg_right ht ht0
    have c1 : 0 ≤ t * (P + Q) := by positivity
    have c2 : 0 ≤ κ * (P * Q) := by positivity
    norm_num
    nlinarith
  refine ⟨a4, ?_⟩
  have a5 : |p * q| ≤ P * Q := by rw [abs_mul]; exact mul_le_mul hp hq (abs_nonneg _) P0
  have a6 := abs_sub_abs_le_abs_sub (p' * q') (p * q)
  have a7 : κ * (P * Q) ≤ 1 / 1000000 * (P * Q) := mul_le_mul_of_nonneg_right hκ PQ
  generalize |p' * q' - p * q| = X at *
  generalize |p' * q'| = X1 at *
  generalize |p * q| = X2 at *
  norm_num at a4 ⊢
  linarith

/-- A difference of products of sums. -/
theorem det_near {l : Trig} {ρ : ℕ → ℝ} {i j k m : ℕ} {x p q r s P Q R S n : ℝ} (hn0 : 0 ≤ n) (hn : n ≤ 1000) (hp : |p| ≤ P) (hq : |q| ≤ Q) (hr : |r| ≤ R) (hs : |s| ≤ S)
    (hP : P ≤ 2 ^ 100) (hQ : Q ≤ 2 ^ 100) (hR : R ≤ 2 ^ 100) (hS : S ≤ 2 ^ 100)
    (hp' : |ρ i - p| ≤ (n + 4) * 1.15e-16 * P + 1 / 2 ^ 485) (hq' : |ρ j - q| ≤ (n + 4) * 1.15e-16 * Q + 1 / 2 ^ 485)
    (hr' : |ρ k - r| ≤ (n + 4) * 1.15e-16 * R + 1 / 2 ^ 485) (hs' : |ρ m - s| ≤ (n + 4) * 1.15e-16 * S + 1 / 2 ^ 485)
    (h : Run l ρ (v i * v j - v k * v m) x) : |x - (p * q - r * s)| ≤ (2 * n + 12) * 1.2e-16 * (P * Q + R * S) + 1 / 2 ^ 375 := by
  have d := diff_near h
  have κ0 : 0 ≤ (n + 4) * 1.15e-16 := by positivity
  have κ1 : (n + 4) * 1.15e-16 ≤ 1 / 1000000 := by norm_num; linarith
  have t0 : (0 : ℝ) ≤ 1 / 2 ^ 485 := by positivity
  have t1 : (1 : ℝ) / 2 ^ 485 ≤ 1 / 1000000 := one_div_le_one_div_of_le (by norm_num) (by
    refine le_trans ?_ (pow_le_pow_right₀ (by norm_num) (by norm_num : 20 ≤ 485)); norm_num)
  obtain ⟨a1, a2⟩ := prod_near κ0 κ1 t0 t1 hp hq hp' hq'
  obtain ⟨b1, b2⟩ := prod_near κ0 κ1 t0 t1 hr hs hr' hs'
  have P0 : 0 ≤ P := (abs_nonneg _).trans hp
  have Q0 : 0 ≤ Q := (abs_nonneg _).trans hq
  have R0 : 0 ≤ R := (abs_nonneg _).trans hr
  have S0 : 0 ≤ S := (abs_nonneg _).trans hs
  have PQ : 0 ≤ P * Q := mul_nonneg P0 Q0
  have RS : 0 ≤ R * S := mul_nonneg R0 S0
  have e : (1 : ℝ) / 2 ^ 485 * (2 ^ 110) = 1 / 2 ^ 375 := by
    rw [div_mul_eq_mul_div, one_mul, div_eq_div_iff (by positivity) (by positivity), one_mul, ← pow_add]
  have e2 : (4 : ℝ) / 2 ^ 500 ≤ 1 / 2 ^ 485 := by
    rw [div_le_div_iff₀ (by positivity) (by positivity), one_mul, show (2 : ℝ) ^ 500 = 2 ^ 15 * 2 ^ 485 by rw [← pow_add]]
    gcongr
    norm_num
  have u1 : 2 * (1 / 2 ^ 485) * (P + Q + 1) ≤ 1 / 2 ^ 485 * 2 ^ 103 := by
    rw [mul_comm 2, mul_assoc]
    refine mul_le_mul_of_nonneg_left ?_ t0
    norm_num at hP hQ ⊢
    linarith
  have u2 : 2 * (1 / 2 ^ 485) * (R + S + 1) ≤ 1 / 2 ^ 485 * 2 ^ 103 := by
    rw [mul_comm 2, mul_assoc]
    refine mul_le_mul_of_nonneg_left ?_ t0
    norm_num at hR hS ⊢
    linarith
  have f : |x - (p * q - r * s)| ≤ |x - (ρ i * ρ j - ρ k * ρ m)| + |ρ i * ρ j - p * q| + |ρ k * ρ m - r * s| := by
    rw [show x - (p * q - r * s) = (x - (ρ i * ρ j - ρ k * ρ m)) + (ρ i * ρ j - p * q) + -(ρ k * ρ m - r * s) by ring]
    have t1 := abs_add_le ((x - (ρ i * ρ j - ρ k * ρ m)) + (ρ i * ρ j - p * q)) (-(ρ k * ρ m - r * s))
    have t2 := abs_add_le (x - (ρ i * ρ j - ρ k * ρ m)) (ρ i * ρ j - p * q)
    rw [abs_neg] at t1
    linarith
  rw [← e]
  generalize (1 : ℝ) / 2 ^ 485 = t at *
  generalize (4 : ℝ) / 2 ^ 500 = t' at *
  generalize P * Q = X1 at *
  generalize R * S = X2 at *
  generalize 2 * t * (P + Q + 1) = Y1 at *
  generalize 2 * t * (R + S + 1) = Y2 at *
  generalize |ρ i * ρ j| = Z1 at *
  generalize |ρ k * ρ m| = Z2 at *
  generalize |ρ i * ρ j - p * q| = Z3 at *
  generalize |ρ k * ρ m - r * s| = Z4 at *
  generalize |x - (ρ i * ρ j - ρ k * ρ m)| = Z5 at *
  generalize |x - (p * q - r * s)| = Z6 at *
  have n1 : 0 ≤ n * X1 := mul_nonneg hn0 PQ
  have n2 : 0 ≤ n * X2 := mul_nonneg hn0 RS
  rw [show 2.001 * ((n + 4) * 1.15e-16) * X1 = 2.001 * 1.15e-16 * (n * X1) + 4 * 2.001 * 1.15e-16 * X1 by ring] at a1
  rw [show 2.001 * ((n + 4) * 1.15e-16) * X2 = 2.001 * 1.15e-16 * (n * X2) + 4 * 2.001 * 1.15e-16 * X2 by ring] at b1
  rw [show (2 * n + 12) * 1.2e-16 * (X1 + X2) = 2 * 1.2e-16 * (n * X1) + 2 * 1.2e-16 * (n * X2) + 12 * 1.2e-16 * (X1 + X2) by ring]
  generalize n * X1 = N1 at *
  generalize n * X2 = N2 at *
  norm_num at a1 a2 b1 b2 d u1 u2 ⊢
  linarith

theorem fsum_abs (p : List (ℝ × ℝ)) (f : ℝ → ℝ → ℝ) : |fsum p f| ≤ fsum p (fun x y => |f x y|) := by
  unfold fsum
  induction p with
  | nil => simp
  | cons q p ih => simp only [List.map_cons, List.sum_cons]; exact (abs_add_le _ _).trans (by linarith)

theorem fsum_le (p : List (ℝ × ℝ)) (f : ℝ → ℝ → ℝ) {B : ℝ} (h : ∀ q ∈ p, f q.1 q.2 ≤ B) : fsum p f ≤ p.length * B := by
  unfold fsum
  induction p with
  | nil => simp
  | cons q p ih =>
    simp only [List.map_cons, List.sum_cons, List.length_cons]
    push_cast
    have := ih fun r hr => h r (List.mem_cons_of_mem _ hr)
    have := h q List.mem_cons_self
    linarith

/-- A quotient of numbers with errors. -/
theorem quo_near {N D n' d' e E : ℝ} (hn : |n' - N| ≤ e) (hd : |d' - D| ≤ E) (hD : 2 * E ≤ D) (hD0 : 0 < D) :
    d' ≠ 0 ∧ |fl (n' / d') - N / D| ≤ 3 / D * (e + |N / D| * E) + 1.2e-16 * |N / D| + 1 / 2 ^ 500 := by
  have E0 : 0 ≤ E := (abs_nonneg _).trans hd
  have e0 : 0 ≤ e := (abs_nonneg _).trans hn
  have d1 : D / 2 ≤ d' := by
    have := (abs_le.mp hd).1; linarith
  have d0 : 0 < d' := by linarith
  refine ⟨d0.ne', ?_⟩
  have k : |n' / d' - N / D| ≤ 2 / D * (e + |N / D| * E) := by
    have i : n' / d' - N / D = ((n' - N) - N / D * (d' - D)) / d' := by field_simp; ring
    rw [i, abs_div, abs_of_pos d0, div_le_iff₀ d0]
    have t1 : |(n' - N) - N / D * (d' - D)| ≤ e + |N / D| * E := by
      rw [sub_eq_add_neg]
      refine (abs_add_le _ _).trans (add_le_add hn ?_)
      rw [abs_neg, abs_mul]
      gcongr
    refine t1.trans ?_
    have : 1 ≤ 2 / D * d' := by rw [div_mul_eq_mul_div, le_div_iff₀ hD0]; linarith
    rw [mul_right_comm]
    exact le_mul_of_one_le_left (by positivity) this
  have f := fl_tiny (n' / d')
  have a := abs_sub_abs_le_abs_sub (n' / d') (N / D)
  have t := abs_sub_le (fl (n' / d')) (n' / d') (N / D)
  have X0 : 0 ≤ 1 / D * (e + |N / D| * E) := by positivity
  rw [show 3 / D * (e + |N / D| * E) = 3 * (1 / D * (e + |N / D| * E)) by ring]
  rw [show 2 / D * (e + |N / D| * E) = 2 * (1 / D * (e + |N / D| * E)) by ring] at k
  generalize 1 / D * (e + |N / D| * E) = X at *
  have := abs_nonneg (N / D)
  generalize (1 : ℝ) / 2 ^ 500 = η at *
  generalize |N / D| = X2 at *
  generalize |n' / d'| = X3 at *
  generalize |n' / d' - N / D| = X4 at *
  norm_num at f ⊢
  linarith

/-- The sums of Linear: errors and sizes. -/
theorem sums_near {l : Trig} {p : List (ℝ × ℝ)} (hp : p.length ≤ 1000) (hb : ∀ q ∈ p, |q.1| ≤ 2 ^ 40 ∧ |q.2| ≤ 2 ^ 40) {g : Ex} (hg : Small g) {f : ℝ → ℝ → ℝ}
    (hf : ∀ s x y, g.val (at3 s x y) = f x y) (hB : ∀ q ∈ p, |f q.1 q.2| ≤ 2 ^ 80) {r : ℝ} (h : Acc l g 0 p r) :
    |fsum p f| ≤ fsum p (fun x y => |f x y|) ∧ fsum p (fun x y => |f x y|) ≤ 2 ^ 100 ∧
      |r - fsum p f| ≤ (p.length + 4) * 1.15e-16 * fsum p (fun x y => |f x y|) + 1 / 2 ^ 485 := by
  refine ⟨fsum_abs p f, ?_, acc_near hg hp hf h⟩
  refine (fsum_le p _ hB).trans ?_
  have : (p.length : ℝ) ≤ 1000 := by exact_mod_cast hp
  norm_num
  linarith

theorem mul_b {a b : ℝ} (ha : |a| ≤ 2 ^ 40) (hb : |b| ≤ 2 ^ 40) : |a * b| ≤ 2 ^ 80 := by
  rw [abs_mul, show (2 : ℝ) ^ 80 = 2 ^ 40 * 2 ^ 40 by norm_num]
  exact mul_le_mul ha hb (abs_nonneg _) (by positivity)

theorem step_exact {l : Trig} {ρ : ℕ → ℝ} {g : Ex} (hg : Small g) {x : ℝ} (h : Run l ρ (v 0 + g) x) (h1 : Rep (g.val ρ)) (h2 : Rep (ρ 0 + g.val ρ)) : x = ρ 0 + g.val ρ := by
  rcases hg with ⟨i, rfl⟩ | ⟨i, j, rfl⟩
  · cases h with
    | add h3 h4 => cases h3; cases h4; exact fl_rep h2
  · cases h with
    | add h3 h4 =>
      cases h3
      cases h4 with
      | mul h5 h6 =>
        cases h5; cases h6
        rw [show fl (ρ i * ρ j) = ρ i * ρ j from fl_rep h1]
        exact fl_rep h2
    | addMul h3 h5 h6 => cases h3; cases h5; cases h6; exact fl_rep h2

theorem diff_exact {l : Trig} {ρ : ℕ → ℝ} {i j k m : ℕ} {x : ℝ} (h : Run l ρ (v i * v j - v k * v m) x) (h1 : Rep (ρ i * ρ j)) (h2 : Rep (ρ k * ρ m))
    (h3 : Rep (ρ i * ρ j - ρ k * ρ m)) : x = ρ i * ρ j - ρ k * ρ m := by
  cases h with
  | sub a b =>
    cases a with
    | mul c d =>
      cases b with
      | mul e f =>
        cases c; cases d; cases e; cases f
        rw [fl_rep h1, fl_rep h2, fl_rep h3]
  | subMul a e f =>
    cases a with
    | mul c d =>
      cases c; cases d; cases e; cases f
      rw [fl_rep h1, fl_rep h3]
  | mulSub a c d =>
    cases a with
    | mul e f =>
      cases c; cases d; cases e; cases f
      rw [fl_rep h2, fl_rep h3]

theorem rint (n : ℕ) (h : n ≤ 100) : Rep n := by
  have := rep_int (n := n) (by rw [Nat.abs_cast]; norm_num; omega)
  simpa using this

/-- The sum of a function of points (0, 0), (1, 1), (2, 2) which are whole numbers. -/
theorem acc012 {l : Trig} {g : Ex} (hg : Small g) {r : ℝ} (a b c : ℕ) (ha : a ≤ 10) (hb : b ≤ 10) (hc : c ≤ 10) (h0 : ∀ s, g.val (at3 s 0 0) = a) (h1 : ∀ s, g.val (at3 s 1 1) = b)
    (h2 : ∀ s, g.val (at3 s 2 2) = c) (h : Acc l g 0 [(0, 0), (1, 1), (2, 2)] r) : r = a + b + c := by
  obtain ⟨s1, r1, s2, r2, s3, r3, rfl⟩ := h
  have e1 : s1 = a := by
    have := step_exact hg r1 (by rw [h0]; exact rint a (by omega)) (by rw [h0]; simp only [at3, zero_add]; exact rint a (by omega))
    rw [this, h0]; simp only [at3, zero_add]
  subst e1
  have e2 : s2 = a + b := by
    have := step_exact hg r2 (by rw [h1]; exact rint b (by omega)) (by rw [h1]; simp only [at3]; exact_mod_cast rint (a + b) (by omega))
    rw [this, h1]; simp only [at3]
  subst e2
  have := step_exact hg r3 (by rw [h2]; exact rint c (by omega)) (by rw [h2]; simp only [at3]; exact_mod_cast rint (a + b + c) (by omega))
  rw [this, h2]; simp only [at3]

end Fit64v

open Fit64v in
/-- C197: Linear.  If the points are not too close together for their distance from the origin, both coefficients are finite and near the exact ones. -/
theorem C197_linear {l : Trig} {p : List (ℝ × ℝ)} (hp : p.length ≤ 1000) (hb : ∀ q ∈ p, |q.1| ≤ 2 ^ 40 ∧ |q.2| ≤ 2 ^ 40) {a b : Option ℝ} (h : Fit64.Linear l p a b)
    {n X Y X2 XY A B D E EA EB : ℝ} (hn : n = p.length) (hX : X = fsum p fun x _ => x) (hY : Y = fsum p fun _ y => y) (hX2 : X2 = fsum p fun x _ => x * x)
    (hXY : XY = fsum p fun x y => x * y) (hD : D = n * X2 - X * X) (hA : A = (n * XY - X * Y) / D) (hB : B = (Y * X2 - X * XY) / D)
    (hE : E = (2 * n + 12) * 1.2e-16 * (n * X2 + (fsum p fun x _ => |x|) * fsum p fun x _ => |x|) + 1 / 2 ^ 375)
    (hEA : EA = (2 * n + 12) * 1.2e-16 * ((n * fsum p fun x y => |x * y|) + (fsum p fun x _ => |x|) * fsum p fun _ y => |y|) + 1 / 2 ^ 375)
    (hEB : EB = (2 * n + 12) * 1.2e-16 * ((fsum p fun _ y => |y|) * X2 + (fsum p fun x _ => |x|) * fsum p fun x y => |x * y|) + 1 / 2 ^ 375)
    (hd : 2 * E ≤ D) :
    ∃ a' b', a = some a' ∧ b = some b' ∧ |a' - A| ≤ 3 / D * (EA + |A| * E) + 1.2e-16 * |A| + 1 / 2 ^ 500 ∧
      |b' - B| ≤ 3 / D * (EB + |B| * E) + 1.2e-16 * |B| + 1 / 2 ^ 500 := by
  obtain ⟨sx, sy, sx2, sxy, d, na, nb, r1, r2, r3, r4, r5, r6, r7, rfl, rfl⟩ := h
  obtain ⟨x1, x2, x3⟩ := sums_near (f := fun x _ => x) hp hb (Or.inl ⟨1, rfl⟩) (fun _ _ _ => rfl) (fun q hq => (hb q hq).1.trans (by norm_num)) r1
  obtain ⟨y1, y2, y3⟩ := sums_near (f := fun _ y => y) hp hb (Or.inl ⟨2, rfl⟩) (fun _ _ _ => rfl) (fun q hq => (hb q hq).2.trans (by norm_num)) r2
  obtain ⟨u1, u2, u3⟩ := sums_near (f := fun x _ => x * x) hp hb (Or.inr ⟨1, 1, rfl⟩) (fun _ _ _ => rfl) (fun q hq => mul_b (hb q hq).1 (hb q hq).1) r3
  obtain ⟨w1, w2, w3⟩ := sums_near (f := fun x y => x * y) hp hb (Or.inr ⟨1, 2, rfl⟩) (fun _ _ _ => rfl) (fun q hq => mul_b (hb q hq).1 (hb q hq).2) r4
  have n0 : (0 : ℝ) ≤ n := by rw [hn]; exact Nat.cast_nonneg _
  have n1 : n ≤ 1000 := by rw [hn]; exact_mod_cast hp
  have n2 : |n| ≤ n := (abs_of_nonneg n0).le
  have n3 : n ≤ 2 ^ 100 := n1.trans (by norm_num)
  have n4 : |n - n| ≤ (n + 4) * 1.15e-16 * n + 1 / 2 ^ 485 := by rw [sub_self, abs_zero]; positivity
  have xx : (fsum p fun x _ => |x * x|) = X2 := by rw [hX2]; simp only [abs_mul_self]
  rw [← hn] at x3 y3 u3 w3 r5 r6 r7
  rw [← hX] at x1 x3
  rw [← hY] at y1 y3
  rw [xx, ← hX2] at u1 u3
  rw [xx] at u2
  rw [← hXY] at w1 w3
  have dd := det_near n0 n1 n2 u1 x1 x1 n3 u2 x2 x2 n4 u3 x3 x3 r5
  have da := det_near n0 n1 n2 w1 x1 y1 n3 w2 x2 y2 n4 w3 x3 y3 r6
  have db := det_near n0 n1 y1 u1 x1 w1 y2 u2 x2 w2 y3 u3 x3 w3 r7
  rw [← hE, ← hD] at dd
  rw [← hEA] at da
  rw [← hEB] at db
  have E0 : 0 < E := by
    rw [hE]
    have X20 : 0 ≤ X2 := (abs_nonneg _).trans u1
    have := (abs_nonneg _).trans x1
    positivity
  obtain ⟨q1, q2⟩ := quo_near da dd hd (by linarith)
  obtain ⟨_, q3⟩ := quo_near db dd hd (by linarith)
  rw [← hA] at q2
  rw [← hB] at q3
  refine ⟨fl (na / d), fl (nb / d), ?_, ?_, q2, q3⟩ <;> simp [Fit64.quo, q1]

open Fit64v in
/-- C197: Func1, for functions with a sum of squares that is not tiny. -/
theorem C197_func1 {l : Trig} {p : List (ℝ × ℝ)} (hp : p.length ≤ 1000) (hb : ∀ q ∈ p, |q.1| ≤ 2 ^ 40 ∧ |q.2| ≤ 2 ^ 40) {a : Option ℝ} (h : Fit64.Func1 l p a)
    (hs : 1 / 2 ^ 300 ≤ fsum p fun f _ => f * f) :
    ∃ a', a = some a' ∧ |a' - (fsum p fun f y => y * f) / fsum p fun f _ => f * f| ≤
      (p.length + 4) * 7.5e-16 * ((fsum p fun f y => |y * f|) / fsum p fun f _ => f * f) + 1 / 2 ^ 180 := by
  obtain ⟨syf, sf2, r1, r2, rfl⟩ := h
  obtain ⟨x1, x2, x3⟩ := sums_near (f := fun x y => y * x) hp hb (Or.inr ⟨2, 1, rfl⟩) (fun _ _ _ => rfl) (fun q hq => mul_b (hb q hq).2 (hb q hq).1) r1
  obtain ⟨u1, u2, u3⟩ := sums_near (f := fun x _ => x * x) hp hb (Or.inr ⟨1, 1, rfl⟩) (fun _ _ _ => rfl) (fun q hq => mul_b (hb q hq).1 (hb q hq).1) r2
  have xx : (fsum p fun x _ => |x * x|) = fsum p fun x _ => x * x := by simp only [abs_mul_self]
  rw [xx] at u1 u2 u3
  have n0 : (0 : ℝ) ≤ p.length := Nat.cast_nonneg _
  have n1 : (p.length : ℝ) ≤ 1000 := by exact_mod_cast hp
  generalize (p.length : ℝ) = n at *
  generalize (fsum p fun x _ => x * x) = D at *
  generalize (fsum p fun x y => y * x) = N at *
  generalize (fsum p fun x y => |y * x|) = M at *
  have D0 : 0 < D := lt_of_lt_of_le (by positivity) hs
  have M0 : 0 ≤ M := (abs_nonneg _).trans x1
  have t : (1 : ℝ) / 2 ^ 485 = 1 / 2 ^ 185 * (1 / 2 ^ 300) := by rw [div_mul_div_comm, one_mul, ← pow_add]
  have tD : (1 : ℝ) / 2 ^ 485 ≤ 1 / 2 ^ 185 * D := by rw [t]; gcongr
  have s1 : (1 : ℝ) / 2 ^ 185 ≤ 1 / 10 ^ 20 := by norm_num
  obtain ⟨q1, q2⟩ := quo_near x3 u3 (by
    have : n * D ≤ 1000 * D := by gcongr
    have : 1 / 2 ^ 185 * D ≤ 1 / 10 ^ 20 * D := by gcongr
    rw [show (n + 4) * 1.15e-16 * D = 1.15e-16 * (n * D) + 4 * 1.15e-16 * D by ring]
    generalize n * D = nD at *
    generalize (1 : ℝ) / 2 ^ 485 = t' at *
    generalize (1 : ℝ) / 2 ^ 185 * D = t2 at *
    norm_num at *
    linarith) D0
  refine ⟨fl (syf / sf2), by simp [Fit64.quo, q1], q2.trans ?_⟩
  have nd : |N / D| ≤ M / D := by rw [abs_div, abs_of_pos D0]; gcongr
  have c1 : (0 : ℝ) ≤ (n + 4) * 1.15e-16 := by positivity
  have e1 : 1 / 2 ^ 485 / D ≤ 1 / 2 ^ 185 := by rw [div_le_iff₀ D0]; exact tD
  have c2 : 3 / D * ((n + 4) * 1.15e-16 * M + 1 / 2 ^ 485 + |N / D| * ((n + 4) * 1.15e-16 * D + 1 / 2 ^ 485)) ≤
      6 * ((n + 4) * 1.15e-16) * (M / D) + 3 * (1 / 2 ^ 185) + 3 * (1 / 2 ^ 185) * (M / D) := by
    have i : 3 / D * ((n + 4) * 1.15e-16 * M + 1 / 2 ^ 485 + |N / D| * ((n + 4) * 1.15e-16 * D + 1 / 2 ^ 485)) =
        3 * ((n + 4) * 1.15e-16) * (M / D) + 3 * (1 / 2 ^ 485 / D) + 3 * ((n + 4) * 1.15e-16) * |N / D| + 3 * (1 / 2 ^ 485 / D) * |N / D| := by
      field_simp
      ring
    rw [i]
    have j1 : 3 * ((n + 4) * 1.15e-16) * |N / D| ≤ 3 * ((n + 4) * 1.15e-16) * (M / D) := by gcongr
    have j2 : 3 * (1 / 2 ^ 485 / D) * |N / D| ≤ 3 * (1 / 2 ^ 185) * (M / D) := by gcongr
    have j3 : 3 * (1 / 2 ^ 485 / D) ≤ 3 * (1 / 2 ^ 185) := by gcongr
    linarith
  refine (add_le_add_left (add_le_add c2 (mul_le_mul_of_nonneg_left nd (by norm_num : (0 : ℝ) ≤ 1.2e-16))) _).trans ?_
  have MD : 0 ≤ M / D := by positivity
  generalize M / D = m at *
  have nm : 0 ≤ n * m := mul_nonneg n0 MD
  have k1 : (1 : ℝ) / 2 ^ 500 ≤ 1 / 2 ^ 185 := by
    apply one_div_le_one_div_of_le (by positivity)
    exact pow_le_pow_right₀ (by norm_num) (by norm_num)
  have k2 : 3 * ((1 : ℝ) / 2 ^ 185) * m ≤ 3 * (1 / 10 ^ 20) * m := by gcongr
  have k3 : (32 : ℝ) * (1 / 2 ^ 185) = 1 / 2 ^ 180 := by norm_num
  rw [← k3]
  have k4 : (0 : ℝ) ≤ 1 / 2 ^ 185 := by positivity
  rw [show 6 * ((n + 4) * 1.15e-16) * m = 6 * 1.15e-16 * (n * m) + 24 * 1.15e-16 * m by ring, show (n + 4) * 7.5e-16 * m = 7.5e-16 * (n * m) + 30e-16 * m by ring]
  generalize 3 * ((1 : ℝ) / 2 ^ 185) * m = z at *
  generalize (1 : ℝ) / 2 ^ 500 = t2 at *
  generalize (1 : ℝ) / 2 ^ 185 = t1 at *
  generalize n * m = nm' at *
  norm_num at k2 ⊢
  linarith

open Fit64v Fit64 in
/-- **Violation.** The correlation coefficient of (0, 0), (1, 1), (2, 2) is greater than 1, whichever way the expressions are rounded. -/
theorem C198_correlation_violation {l : Trig} {r : Option ℝ} (h : Fit64.CorrelationCoefficient l [(0, 0), (1, 1), (2, 2)] r) : ∃ x, r = some x ∧ 1 < x := by
  obtain ⟨sx, sy, sx2, sy2, sxy, d, d2, na, a1, a2, a3, a4, a5, b1, b2, b3, rfl⟩ := h
  have e1 := acc012 (Or.inl ⟨1, rfl⟩) 0 1 2 (by norm_num) (by norm_num) (by norm_num) (by intro s; simp [val, at3]) (by intro s; simp [val, at3]) (by intro s; simp [val, at3]) a1
  have e2 := acc012 (Or.inl ⟨2, rfl⟩) 0 1 2 (by norm_num) (by norm_num) (by norm_num) (by intro s; simp [val, at3]) (by intro s; simp [val, at3]) (by intro s; simp [val, at3]) a2
  have m0 : ∀ i j s, (i = 1 ∨ i = 2) → (j = 1 ∨ j = 2) → (v i * v j).val (at3 s 0 0) = (0 : ℕ) ∧ (v i * v j).val (at3 s 1 1) = (1 : ℕ) ∧ (v i * v j).val (at3 s 2 2) = (4 : ℕ) := by
    rintro i j s (rfl | rfl) (rfl | rfl) <;> simp only [val_mul, val_v, at3] <;> norm_num
  have q : ∀ i j x, (i = 1 ∨ i = 2) → (j = 1 ∨ j = 2) → Fit64.Acc l (v i * v j) 0 [(0, 0), (1, 1), (2, 2)] x → x = 5 := by
    intro i j x hi hj hx
    have := acc012 (Or.inr ⟨i, j, rfl⟩) 0 1 4 (by norm_num) (by norm_num) (by norm_num) (fun s => (m0 i j s hi hj).1) (fun s => (m0 i j s hi hj).2.1) (fun s => (m0 i j s hi hj).2.2) hx
    rw [this]; norm_num
  have e3 := q _ _ _ (Or.inl rfl) (Or.inl rfl) a3
  have e4 := q _ _ _ (Or.inr rfl) (Or.inr rfl) a4
  have e5 := q _ _ _ (Or.inl rfl) (Or.inr rfl) a5
  norm_num at e1 e2
  subst e1 e2 e3 e4 e5
  have r15 : Rep ((3 : ℝ) * 5) := by have := rint 15 (by norm_num); norm_num at this ⊢; exact this
  have r9 : Rep ((3 : ℝ) * 3) := by have := rint 9 (by norm_num); norm_num at this ⊢; exact this
  have r6 : Rep ((3 : ℝ) * 5 - 3 * 3) := by have := rint 6 (by norm_num); norm_num at this ⊢; exact this
  have f1 : d = 6 := by
    have := diff_exact b1 (by simpa [Fit64.at6] using r15) (by simpa [Fit64.at6] using r9) (by simpa [Fit64.at6] using r6)
    rw [this]; simp only [Fit64.at6]; norm_num
  have f2 : d2 = 6 := by
    have := diff_exact b2 (by simpa [Fit64.at6] using r15) (by simpa [Fit64.at6] using r9) (by simpa [Fit64.at6] using r6)
    rw [this]; simp only [Fit64.at6]; norm_num
  have f3 : na = 6 := by
    have := diff_exact b3 (by simpa [Fit64.at6] using r15) (by simpa [Fit64.at6] using r9) (by simpa [Fit64.at6] using r6)
    rw [this]; simp only [Fit64.at6]; norm_num
  subst f1 f2 f3
  have s6 : fl (Real.sqrt 6) = 5515760546423086 / 2 ^ 51 := by
    have lo : (5515760546423085.5 / 2 ^ 51 : ℝ) < Real.sqrt 6 := by
      apply Real.lt_sqrt_of_sq_lt; norm_num
    have hi : Real.sqrt 6 < (5515760546423086.5 / 2 ^ 51 : ℝ) := by
      rw [Real.sqrt_lt' (by norm_num)]; norm_num
    refine Coord64v.fl_eq 51 5515760546423086 (by norm_num) (by norm_num) (by norm_num) ?_ ?_
    · norm_num at lo ⊢; linarith
    · rw [abs_lt]; norm_num at lo hi ⊢; constructor <;> linarith
  rw [s6]
  have p6 : fl (5515760546423086 / 2 ^ 51 * (5515760546423086 / 2 ^ 51)) = 6755399441055743 / 2 ^ 50 := by
    refine Coord64v.fl_eq 50 6755399441055743 (by norm_num) (by norm_num) (by norm_num) (by norm_num) ?_
    rw [abs_lt]
    norm_num
  rw [p6]
  refine ⟨fl (6 / (6755399441055743 / 2 ^ 50)), ?_, ?_⟩
  · rw [if_neg (by norm_num), Fit64.quo, if_neg (by norm_num)]
  · exact Coord64v.fl_above (by norm_num) (by norm_num)

namespace Fit64v

open Fit64

theorem fsum_lin (p : List (ℝ × ℝ)) (s t : ℝ) : (fsum p fun x y => (s * x + t * y)) = s * (fsum p fun x _ => x) + t * (fsum p fun _ y => y) ∧
    (fsum p fun x y => (s * x + t * y) * (s * x + t * y)) = s * s * (fsum p fun x _ => x * x) + 2 * s * t * (fsum p fun x y => x * y) + t * t * (fsum p fun _ y => y * y) := by
  unfold fsum
  induction p with
  | nil => simp
  | cons q p ih =>
    simp only [List.map_cons, List.sum_cons]
    rw [ih.1, ih.2]
    constructor <;> ring

/-- The square of a sum. -/
theorem cauchy (p : List (ℝ × ℝ)) (f : ℝ → ℝ → ℝ) : 0 ≤ (p.length : ℝ) * (fsum p fun x y => f x y * f x y) - fsum p f * fsum p f := by
  have key : ∀ (q : List (ℝ × ℝ)) (a S : ℝ), (fsum q fun x y => (a * f x y - S) * (a * f x y - S)) = a * a * (fsum q fun x y => f x y * f x y) - 2 * a * S * fsum q f + q.length * (S * S) := by
    intro q a S
    unfold fsum
    induction q with
    | nil => simp
    | cons r q ih =>
      simp only [List.map_cons, List.sum_cons, List.length_cons]
      rw [ih]
      push_cast
      ring
  have h := key p p.length (fsum p f)
  have h0 : 0 ≤ fsum p fun x y => ((p.length : ℝ) * f x y - fsum p f) * (p.length * f x y - fsum p f) := List.sum_nonneg (by
    intro z hz
    obtain ⟨t, _, rfl⟩ := List.mem_map.mp hz
    exact mul_self_nonneg _)
  rcases p with _ | ⟨q, p⟩
  · simp [fsum]
  · have n0 : (0 : ℝ) < ((q :: p).length : ℝ) := by rw [List.length_cons]; positivity
    generalize ((q :: p).length : ℝ) = n at *
    rw [h] at h0
    refine le_of_mul_le_mul_left ?_ n0
    rw [mul_zero]
    linarith

/-- The inequality of Cauchy and Schwarz. -/
theorem cauchy2 (p : List (ℝ × ℝ)) (h : 0 < (p.length : ℝ) * (fsum p fun _ y => y * y) - (fsum p fun _ y => y) * (fsum p fun _ y => y)) :
    ((p.length : ℝ) * (fsum p fun x y => x * y) - (fsum p fun x _ => x) * (fsum p fun _ y => y)) ^ 2 ≤
      ((p.length : ℝ) * (fsum p fun x _ => x * x) - (fsum p fun x _ => x) * (fsum p fun x _ => x)) *
      ((p.length : ℝ) * (fsum p fun _ y => y * y) - (fsum p fun _ y => y) * (fsum p fun _ y => y)) := by
  have q := fun s t => cauchy p (fun x y => s * x + t * y)
  simp only [(fsum_lin p _ _).1, (fsum_lin p _ _).2] at q
  generalize (fsum p fun x _ => x) = X at *
  generalize (fsum p fun _ y => y) = Y at *
  generalize (fsum p fun x _ => x * x) = X2 at *
  generalize (fsum p fun _ y => y * y) = Y2 at *
  generalize (fsum p fun x y => x * y) = XY at *
  generalize (p.length : ℝ) = n at *
  have q1 := q (n * Y2 - Y * Y) (-(n * XY - X * Y))
  refine le_of_mul_le_mul_left ?_ h
  linarith

/-- The rounded square root of a number with an error. -/
theorem sqrt_low {D d E κ : ℝ} (hκ0 : 0 ≤ κ) (hκ : κ ≤ 1 / 100) (hd : |d - D| ≤ E) (hE : E ≤ κ * D) (hD : 1 / 2 ^ 375 ≤ E) :
    0 < D ∧ 0 ≤ d ∧ Real.sqrt D * (1 - κ) * (1 - 1 / 5000000000000000) ≤ fl (Real.sqrt d) := by
  have t0 : (0 : ℝ) < 1 / 2 ^ 375 := by positivity
  have D0 : 0 < D := by
    by_contra h
    have : κ * D ≤ 0 := mul_nonpos_of_nonneg_of_nonpos hκ0 (by linarith)
    linarith
  have d1 : D * (1 - κ) ≤ d := by
    have := (abs_le.mp hd).1
    nlinarith
  have d2 : D * (1 - κ) * (1 - κ) ≤ d := by
    have : 0 ≤ D * (1 - κ) * κ := by
      have : 0 ≤ 1 - κ := by linarith
      positivity
    nlinarith
  have d0 : 0 ≤ d := le_trans (mul_nonneg D0.le (by linarith)) d1
  refine ⟨D0, d0, ?_⟩
  have s1 : Real.sqrt D * (1 - κ) ≤ Real.sqrt d := by
    apply Real.le_sqrt_of_sq_le
    rw [mul_pow, Real.sq_sqrt D0.le]
    linarith
  have D1 : 1 / 2 ^ 375 ≤ D := by nlinarith
  have d3 : (1 / 2 ^ 200 : ℝ) ^ 2 ≤ d := by
    have e : (1 / 2 ^ 200 : ℝ) ^ 2 = 1 / 2 ^ 25 * (1 / 2 ^ 375) := by rw [div_pow, one_pow, div_mul_div_comm, one_mul, ← pow_mul, ← pow_add]
    rw [e]
    have : D * (99 / 100) ≤ D * (1 - κ) := by gcongr; linarith
    generalize (1 : ℝ) / 2 ^ 375 = t at *
    norm_num
    linarith
  have s2 : (1 / 2 ^ 200 : ℝ) ≤ Real.sqrt d := Real.le_sqrt_of_sq_le d3
  have f := abs_le.mp (fl_tiny (Real.sqrt d))
  rw [abs_of_nonneg (Real.sqrt_nonneg d)] at f
  have η : (1 : ℝ) / 2 ^ 500 = 1 / 2 ^ 300 * (1 / 2 ^ 200) := by rw [div_mul_div_comm, one_mul, ← pow_add]
  rw [η] at f
  have g1 : 1 / 2 ^ 300 * (1 / 2 ^ 200) ≤ 1 / 2 ^ 300 * Real.sqrt d := by gcongr
  have g2 : 1 / 2 ^ 300 * Real.sqrt d ≤ 1 / 10 ^ 20 * Real.sqrt d := by
    gcongr
    refine le_trans (by norm_num : (10 : ℝ) ^ 20 ≤ 2 ^ 67) (pow_le_pow_right₀ (by norm_num) (by norm_num))
  have g3 : Real.sqrt d * (1 - 1 / 5000000000000000) ≤ fl (Real.sqrt d) := by
    have := f.1
    have := Real.sqrt_nonneg d
    generalize 1 / 2 ^ 300 * Real.sqrt d = u at *
    generalize (1 : ℝ) / 2 ^ 300 * (1 / 2 ^ 200) = w at *
    norm_num at *
    linarith
  refine le_trans ?_ g3
  gcongr

/-- The quotient, given bounds for the numerator and both factors of the denominator. -/
theorem corr_final {κ P Q s s' na : ℝ} (κ0 : 0 ≤ κ) (hκ : κ ≤ 1 / 100) (P0 : 0 < P) (Q0 : 0 < Q) (s1 : P * (1 - κ) * (1 - 1 / 5000000000000000) ≤ s)
    (s2 : Q * (1 - κ) * (1 - 1 / 5000000000000000) ≤ s') (na1 : |na| ≤ (1 + κ) * (P * Q)) (PQ1 : 1 / 2 ^ 375 ≤ P * Q) :
    fl (s * s') ≠ 0 ∧ |fl (na / fl (s * s'))| ≤ 1 + 4 * κ + 1e-15 := by
  have k0 : 0 < (1 - κ) * (1 - 1 / 5000000000000000 : ℝ) := mul_pos (by linarith) (by norm_num)
  have p1 : P * Q * ((1 - κ) * (1 - 1 / 5000000000000000)) ^ 2 ≤ s * s' := by
    have : P * (1 - κ) * (1 - 1 / 5000000000000000) * (Q * (1 - κ) * (1 - 1 / 5000000000000000)) ≤ s * s' :=
      mul_le_mul s1 s2 (by rw [mul_assoc]; positivity) (le_trans (by rw [mul_assoc]; positivity) s1)
    refine le_trans (le_of_eq ?_) this
    ring
  have PQ0 : 0 < P * Q := mul_pos P0 Q0
  have A1 : P * Q * (9 / 10) ≤ s * s' := by
    refine le_trans ?_ p1
    refine mul_le_mul_of_nonneg_left ?_ PQ0.le
    have h9 : (98 / 100 : ℝ) ≤ (1 - κ) * (1 - 1 / 5000000000000000) := by norm_num; linarith
    have := pow_le_pow_left₀ (by norm_num) h9 2
    refine le_trans (by norm_num) this
  generalize hA : s * s' = A at *
  have A0 : 0 < A := by linarith
  have f := abs_le.mp (fl_tiny A)
  rw [abs_of_pos A0] at f
  have η : (1 : ℝ) / 2 ^ 500 = 1 / 2 ^ 125 * (1 / 2 ^ 375) := by rw [div_mul_div_comm, one_mul, ← pow_add]
  have g1 : (1 : ℝ) / 2 ^ 125 * (1 / 2 ^ 375) ≤ 1 / 2 ^ 125 * (2 * A) := by gcongr; linarith
  have Ac : A * (1 - 1 / 5000000000000000) ≤ fl A := by
    have := f.1
    rw [η] at this
    generalize (1 : ℝ) / 2 ^ 125 * (1 / 2 ^ 375) = w at *
    norm_num at *
    linarith
  generalize fl A = w at *
  have w0 : 0 < w := lt_of_lt_of_le (mul_pos A0 (by norm_num)) Ac
  have hq : (1 + κ) ≤ (1 + 39 / 10 * κ) * (1 - κ) ^ 2 := by
    have e : (1 + 39 / 10 * κ) * (1 - κ) ^ 2 - (1 + κ) = κ * (9 / 10 - 68 / 10 * κ + 39 / 10 * κ ^ 2) := by ring
    have : 0 ≤ κ * (9 / 10 - 68 / 10 * κ + 39 / 10 * κ ^ 2) := mul_nonneg κ0 (by have := sq_nonneg κ; linarith)
    linarith
  have c1 : |na| * (1 - 1 / 5000000000000000) ^ 3 ≤ (1 + 39 / 10 * κ) * w := by
    calc |na| * (1 - 1 / 5000000000000000) ^ 3 ≤ (1 + κ) * (P * Q) * (1 - 1 / 5000000000000000) ^ 3 := by
          refine mul_le_mul_of_nonneg_right na1 (by norm_num)
      _ ≤ ((1 + 39 / 10 * κ) * (1 - κ) ^ 2) * (P * Q) * (1 - 1 / 5000000000000000) ^ 3 := by
          refine mul_le_mul_of_nonneg_right (mul_le_mul_of_nonneg_right hq PQ0.le) (by norm_num)
      _ = (1 + 39 / 10 * κ) * ((P * Q * ((1 - κ) * (1 - 1 / 5000000000000000)) ^ 2) * (1 - 1 / 5000000000000000)) := by ring
      _ ≤ (1 + 39 / 10 * κ) * (A * (1 - 1 / 5000000000000000)) := by
          refine mul_le_mul_of_nonneg_left (mul_le_mul_of_nonneg_right p1 (by norm_num)) (by positivity)
      _ ≤ (1 + 39 / 10 * κ) * w := mul_le_mul_of_nonneg_left Ac (by positivity)
  have c2 : |na / w| ≤ (1 + 39 / 10 * κ) * (1 + 7 / 10000000000000000) := by
    rw [abs_div, abs_of_pos w0, div_le_iff₀ w0]
    have h1 : |na| ≤ |na| * (1 - 1 / 5000000000000000) ^ 3 * (1 + 7 / 10000000000000000) := by
      rw [mul_assoc]
      exact le_mul_of_one_le_right (abs_nonneg _) (by norm_num)
    refine h1.trans ?_
    have := mul_le_mul_of_nonneg_right c1 (by norm_num : (0 : ℝ) ≤ 1 + 7 / 10000000000000000)
    linarith
  refine ⟨w0.ne', ?_⟩
  · have h1 := fl_err (na / w)
    have h2 := abs_sub_abs_le_abs_sub (fl (na / w)) (na / w)
    generalize |na / w| = X at *
    generalize |fl (na / w)| = X' at *
    norm_num at h1 ⊢
    linarith

end Fit64v

open Fit64v Fit64 in
/-- C198 (partial: the bound is 1 + 4κ, not 1): the correlation coefficient, for points whose spread is not lost in rounding: E, E2 and EN are the errors of the three determinants. -/
theorem C198_correlation_partial {l : Trig} {p : List (ℝ × ℝ)} (hp : p.length ≤ 1000) (hb : ∀ q ∈ p, |q.1| ≤ 2 ^ 40 ∧ |q.2| ≤ 2 ^ 40) {r : Option ℝ} (h : CorrelationCoefficient l p r)
    {n X Y X2 Y2 D D2 E E2 EN κ : ℝ} (hn : n = p.length) (hX : X = fsum p fun x _ => x) (hY : Y = fsum p fun _ y => y) (hX2 : X2 = fsum p fun x _ => x * x)
    (hY2 : Y2 = fsum p fun _ y => y * y) (hD : D = n * X2 - X * X) (hD2 : D2 = n * Y2 - Y * Y)
    (hE : E = (2 * n + 12) * 1.2e-16 * (n * X2 + (fsum p fun x _ => |x|) * fsum p fun x _ => |x|) + 1 / 2 ^ 375)
    (hE2 : E2 = (2 * n + 12) * 1.2e-16 * (n * Y2 + (fsum p fun _ y => |y|) * fsum p fun _ y => |y|) + 1 / 2 ^ 375)
    (hEN : EN = (2 * n + 12) * 1.2e-16 * ((n * fsum p fun x y => |x * y|) + (fsum p fun x _ => |x|) * fsum p fun _ y => |y|) + 1 / 2 ^ 375)
    (hκ : κ ≤ 1 / 100) (h1 : E ≤ κ * D) (h2 : E2 ≤ κ * D2) (h3 : EN ≤ κ * Real.sqrt (D * D2)) :
    ∃ x, r = some x ∧ |x| ≤ 1 + 4 * κ + 1e-15 := by
  obtain ⟨sx, sy, sx2, sy2, sxy, d, d2, na, a1, a2, a3, a4, a5, b1, b2, b3, rfl⟩ := h
  obtain ⟨x1, x2, x3⟩ := sums_near (f := fun x _ => x) hp hb (Or.inl ⟨1, rfl⟩) (fun _ _ _ => rfl) (fun q hq => (hb q hq).1.trans (by norm_num)) a1
  obtain ⟨y1, y2, y3⟩ := sums_near (f := fun _ y => y) hp hb (Or.inl ⟨2, rfl⟩) (fun _ _ _ => rfl) (fun q hq => (hb q hq).2.trans (by norm_num)) a2
  obtain ⟨u1, u2, u3⟩ := sums_near (f := fun x _ => x * x) hp hb (Or.inr ⟨1, 1, rfl⟩) (fun _ _ _ => rfl) (fun q hq => mul_b (hb q hq).1 (hb q hq).1) a3
  obtain ⟨z1, z2, z3⟩ := sums_near (f := fun _ y => y * y) hp hb (Or.inr ⟨2, 2, rfl⟩) (fun _ _ _ => rfl) (fun q hq => mul_b (hb q hq).2 (hb q hq).2) a4
  obtain ⟨w1, w2, w3⟩ := sums_near (f := fun x y => x * y) hp hb (Or.inr ⟨1, 2, rfl⟩) (fun _ _ _ => rfl) (fun q hq => mul_b (hb q hq).1 (hb q hq).2) a5
  have n0 : (0 : ℝ) ≤ n := by rw [hn]; exact Nat.cast_nonneg _
  have n1 : n ≤ 1000 := by rw [hn]; exact_mod_cast hp
  have n2 : |n| ≤ n := (abs_of_nonneg n0).le
  have n3 : n ≤ 2 ^ 100 := n1.trans (by norm_num)
  have n4 : |n - n| ≤ (n + 4) * 1.15e-16 * n + 1 / 2 ^ 485 := by rw [sub_self, abs_zero]; positivity
  have xx : (fsum p fun x _ => |x * x|) = X2 := by rw [hX2]; simp only [abs_mul_self]
  have yy : (fsum p fun _ y => |y * y|) = Y2 := by rw [hY2]; simp only [abs_mul_self]
  rw [← hn] at x3 y3 u3 w3 z3 b1 b2 b3
  rw [← hX] at x1 x3
  rw [← hY] at y1 y3
  rw [xx, ← hX2] at u1 u3
  rw [xx] at u2
  rw [yy, ← hY2] at z1 z3
  rw [yy] at z2
  have dd := det_near n0 n1 n2 u1 x1 x1 n3 u2 x2 x2 n4 u3 x3 x3 b1
  have dy := det_near n0 n1 n2 z1 y1 y1 n3 z2 y2 y2 n4 z3 y3 y3 b2
  have da := det_near n0 n1 n2 w1 x1 y1 n3 w2 x2 y2 n4 w3 x3 y3 b3
  rw [← hE, ← hD] at dd
  rw [← hE2, ← hD2] at dy
  rw [← hEN] at da
  -- the exact coefficient
  set N := n * (fsum p fun x y => x * y) - X * Y with hN
  have t0 : (0 : ℝ) < 1 / 2 ^ 375 := by positivity
  have E0 : 1 / 2 ^ 375 ≤ E := by
    rw [hE]
    have X20 : 0 ≤ X2 := (abs_nonneg _).trans u1
    have := (abs_nonneg _).trans x1
    have : 0 ≤ (2 * n + 12) * 1.2e-16 * (n * X2 + (fsum p fun x _ => |x|) * fsum p fun x _ => |x|) := by positivity
    linarith
  have E20 : 1 / 2 ^ 375 ≤ E2 := by
    rw [hE2]
    have X20 : 0 ≤ Y2 := (abs_nonneg _).trans z1
    have := (abs_nonneg _).trans y1
    have : 0 ≤ (2 * n + 12) * 1.2e-16 * (n * Y2 + (fsum p fun _ y => |y|) * fsum p fun _ y => |y|) := by positivity
    linarith
  have D00 : 0 ≤ D := by
    rw [hD, hn, hX2, hX]
    exact cauchy p _
  have D20 : 0 ≤ D2 := by
    rw [hD2, hn, hY2, hY]
    exact cauchy p _
  have κ0 : 0 ≤ κ := by
    by_contra hk
    have : κ * D ≤ 0 := mul_nonpos_of_nonpos_of_nonneg (by linarith) D00
    linarith
  obtain ⟨D1, d0, s1⟩ := sqrt_low κ0 hκ dd h1 E0
  obtain ⟨D21, d20, s2⟩ := sqrt_low κ0 hκ dy h2 E20
  have cs : |N| ≤ Real.sqrt (D * D2) := by
    apply Real.abs_le_sqrt
    rw [hN, hD, hD2, hn, hX2, hX, hY2, hY]
    exact cauchy2 p (by rw [← hn, ← hY2, ← hY, ← hD2]; exact D21)
  have P0 := Real.sqrt_pos.mpr D1
  have Q0 := Real.sqrt_pos.mpr D21
  rw [Real.sqrt_mul D1.le] at cs h3
  have na1 : |na| ≤ (1 + κ) * (Real.sqrt D * Real.sqrt D2) := by
    have := abs_sub_abs_le_abs_sub na N
    linarith
  have EN0 : 1 / 2 ^ 375 ≤ EN := by
    rw [hEN]
    have := (abs_nonneg _).trans x1
    have := (abs_nonneg _).trans y1
    have := (abs_nonneg _).trans w1
    have : 0 ≤ (2 * n + 12) * 1.2e-16 * ((n * fsum p fun x y => |x * y|) + (fsum p fun x _ => |x|) * fsum p fun _ y => |y|) := by positivity
    linarith
  have PQ0 : 0 < Real.sqrt D * Real.sqrt D2 := mul_pos P0 Q0
  have PQ1 : 1 / 2 ^ 375 ≤ Real.sqrt D * Real.sqrt D2 := by
    have : κ * (Real.sqrt D * Real.sqrt D2) ≤ 1 / 100 * (Real.sqrt D * Real.sqrt D2) := by gcongr
    linarith
  obtain ⟨r1, r2⟩ := corr_final κ0 hκ P0 Q0 s1 s2 na1 PQ1
  exact ⟨_, by rw [if_neg (by rw [not_or]; exact ⟨not_lt.mpr d0, not_lt.mpr d20⟩), Fit64.quo, if_neg r1], r2⟩

namespace Fit64v

open Fit64

theorem acc_exists (l : Trig) (g : Ex) (p : List (ℝ × ℝ)) (s : ℝ) : ∃ r, Acc l g s p r := by
  induction p generalizing s with
  | nil => exact ⟨s, rfl⟩
  | cons q p ih =>
    obtain ⟨s', h⟩ := run_exists l (at3 s q.1 q.2) (v 0 + g)
    obtain ⟨r, hr⟩ := ih s'
    exact ⟨r, s', h, hr⟩

theorem linear_exists (l : Trig) (p : List (ℝ × ℝ)) : ∃ a b, Fit64.Linear l p a b := by
  obtain ⟨sx, h1⟩ := acc_exists l (v 1) p 0
  obtain ⟨sy, h2⟩ := acc_exists l (v 2) p 0
  obtain ⟨sx2, h3⟩ := acc_exists l (v 1 * v 1) p 0
  obtain ⟨sxy, h4⟩ := acc_exists l (v 1 * v 2) p 0
  obtain ⟨d, h5⟩ := run_exists l (at6 p.length sx sy sx2 sxy 0) det
  obtain ⟨na, h6⟩ := run_exists l (at6 p.length sx sy sx2 sxy 0) numA
  obtain ⟨nb, h7⟩ := run_exists l (at6 p.length sx sy sx2 sxy 0) numB
  exact ⟨_, _, sx, sy, sx2, sxy, d, na, nb, h1, h2, h3, h4, h5, h6, h7, rfl, rfl⟩

theorem func1_exists (l : Trig) (p : List (ℝ × ℝ)) : ∃ a, Fit64.Func1 l p a := by
  obtain ⟨sy, h2⟩ := acc_exists l (v 2 * v 1) p 0
  obtain ⟨sx2, h3⟩ := acc_exists l (v 1 * v 1) p 0
  exact ⟨_, sy, sx2, h2, h3, rfl⟩

theorem corr_exists (l : Trig) (p : List (ℝ × ℝ)) : ∃ r, Fit64.CorrelationCoefficient l p r := by
  obtain ⟨sx, h1⟩ := acc_exists l (v 1) p 0
  obtain ⟨sy, h2⟩ := acc_exists l (v 2) p 0
  obtain ⟨sx2, h3⟩ := acc_exists l (v 1 * v 1) p 0
  obtain ⟨sy2, h8⟩ := acc_exists l (v 2 * v 2) p 0
  obtain ⟨sxy, h4⟩ := acc_exists l (v 1 * v 2) p 0
  obtain ⟨d, h5⟩ := run_exists l (at6 p.length sx sy sx2 sxy sy2) det
  obtain ⟨d2, h6⟩ := run_exists l (at6 p.length sx sy sx2 sxy sy2) det2
  obtain ⟨na, h7⟩ := run_exists l (at6 p.length sx sy sx2 sxy sy2) numA
  exact ⟨_, sx, sy, sx2, sy2, sxy, d, d2, na, h1, h2, h3, h8, h4, h5, h6, h7, rfl⟩

end Fit64v

/-- C197 for three points off a line, (0, 1), (1, 3), (3, 6): the program has a result, and it is that of exact arithmetic, 23/14 and 8/7, to 2·10⁻¹³. -/
theorem C197_example (l : Trig) : ∃ a b, Fit64.Linear l [(0, 1), (1, 3), (3, 6)] (some a) (some b) ∧ |a - 23 / 14| ≤ 1e-13 ∧ |b - 8 / 7| ≤ 2e-13 := by
  obtain ⟨a, b, h⟩ := Fit64v.linear_exists l [(0, 1), (1, 3), (3, 6)]
  have t : (1 : ℝ) / 2 ^ 375 ≤ 1 / 10 ^ 30 := one_div_le_one_div_of_le (by positivity) (by
    refine le_trans (by norm_num : (10 : ℝ) ^ 30 ≤ 2 ^ 100) (pow_le_pow_right₀ (by norm_num) (by norm_num)))
  have t5 : (1 : ℝ) / 2 ^ 500 ≤ 1 / 10 ^ 30 := one_div_le_one_div_of_le (by positivity) (by
    refine le_trans (by norm_num : (10 : ℝ) ^ 30 ≤ 2 ^ 100) (pow_le_pow_right₀ (by norm_num) (by norm_num)))
  obtain ⟨a', b', rfl, rfl, h1, h2⟩ := C197_linear (by simp) (by
    intro q hq
    simp only [List.mem_cons, List.not_mem_nil, or_false] at hq
    rcases hq with rfl | rfl | rfl <;> norm_num) h rfl rfl rfl rfl rfl rfl rfl rfl rfl rfl rfl (by
    simp only [fsum, List.map_cons, List.map_nil, List.sum_cons, List.sum_nil, List.length_cons, List.length_nil]
    generalize (1 : ℝ) / 2 ^ 375 = z at *
    norm_num
    norm_num at t
    linarith)
  refine ⟨a', b', h, ?_, ?_⟩
  · simp only [fsum, List.map_cons, List.map_nil, List.sum_cons, List.sum_nil, List.length_cons, List.length_nil] at h1
    generalize (1 : ℝ) / 2 ^ 375 = z at *
    generalize (1 : ℝ) / 2 ^ 500 = z' at *
    norm_num at h1 t t5 ⊢
    linarith
  · simp only [fsum, List.map_cons, List.map_nil, List.sum_cons, List.sum_nil, List.length_cons, List.length_nil] at h2
    generalize (1 : ℝ) / 2 ^ 375 = z at *
    generalize (1 : ℝ) / 2 ^ 500 = z' at *
    norm_num at h2 t t5 ⊢
    linarith

/-- C197, Func1 with values 1 and 2 of the function and ordinates 2 and 3: 8/5 to 10⁻¹⁴. -/
theorem C197_func1_example (l : Trig) : ∃ a, Fit64.Func1 l [(1, 2), (2, 3)] (some a) ∧ |a - 8 / 5| ≤ 1e-14 := by
  obtain ⟨a, h⟩ := Fit64v.func1_exists l [(1, 2), (2, 3)]
  obtain ⟨a', rfl, h1⟩ := C197_func1 (by simp) (by
    intro q hq
    simp only [List.mem_cons, List.not_mem_nil, or_false] at hq
    rcases hq with rfl | rfl <;> norm_num) h (by
    simp only [fsum, List.map_cons, List.map_nil, List.sum_cons, List.sum_nil]
    refine le_trans (div_le_one_of_le₀ (one_le_pow₀ (by norm_num)) (by positivity)) (by norm_num))
  refine ⟨a', h, ?_⟩
  simp only [fsum, List.map_cons, List.map_nil, List.sum_cons, List.sum_nil, List.length_cons, List.length_nil] at h1
  norm_num at h1 ⊢
  linarith

open Fit64v Fit64 in
/-- C197: that the abscissae differ is not enough.  For three observations 1/64 day apart, with Julian dates for abscissae, both coefficients are a division by zero (when
multiplication and addition are not fused). -/
theorem C197_dates (l : Trig) (y0 y1 y2 : ℝ) : Fit64.Linear l [(2451545, y0), (2451545 + 1 / 64, y1), (2451545 + 2 / 64, y2)] none none := by
  obtain ⟨sy, h2⟩ := acc_exists l (v 2) [(2451545, y0), (2451545 + 1 / 64, y1), (2451545 + 2 / 64, y2)] 0
  obtain ⟨sxy, h4⟩ := acc_exists l (v 1 * v 2) [(2451545, y0), (2451545 + 1 / 64, y1), (2451545 + 2 / 64, y2)] 0
  have m : ∀ {ρ : ℕ → ℝ} {i j : ℕ}, Run l ρ (v i * v j) (fl (ρ i * ρ j)) := fun {ρ i j} => Run.mul (Run.v i) (Run.v j)
  have e1 : fl ((0 : ℝ) + 2451545) = 2451545 := by
    rw [zero_add]; exact fl_rep ⟨2451545, 0, by norm_num, by norm_num, by norm_num⟩
  have e2 : fl ((2451545 : ℝ) + (2451545 + 1 / 64)) = 313797761 / 64 := by
    rw [show (2451545 : ℝ) + (2451545 + 1 / 64) = 313797761 / 64 by norm_num]; exact fl_rep ⟨313797761, -6, by norm_num, by norm_num, by norm_num⟩
  have e3 : fl ((313797761 / 64 : ℝ) + (2451545 + 2 / 64)) = 470696643 / 64 := by
    rw [show (313797761 / 64 : ℝ) + (2451545 + 2 / 64) = 470696643 / 64 by norm_num]; exact fl_rep ⟨470696643, -6, by norm_num, by norm_num, by norm_num⟩
  have q1 : fl ((2451545 : ℝ) * 2451545) = 6010072887025 := by
    rw [show (2451545 : ℝ) * 2451545 = 6010072887025 by norm_num]; exact fl_rep ⟨6010072887025, 0, by norm_num, by norm_num, by norm_num⟩
  have q2 : fl ((2451545 + 1 / 64 : ℝ) * (2451545 + 1 / 64)) = 192322334836345 / 32 := by
    refine Coord64v.fl_eq 10 (192322334836345 * 32) (by norm_num) (by norm_num) (by norm_num) (by norm_num) ?_
    rw [abs_lt]; norm_num
  have q3 : fl ((2451545 + 2 / 64 : ℝ) * (2451545 + 2 / 64)) = 6154314793212481 / 1024 := by
    refine Coord64v.fl_eq 10 6154314793212481 (by norm_num) (by norm_num) (by norm_num) (by norm_num) ?_
    rw [abs_lt]; norm_num
  have a1 : fl ((0 : ℝ) + 6010072887025) = 6010072887025 := by
    rw [zero_add]; exact fl_rep ⟨6010072887025, 0, by norm_num, by norm_num, by norm_num⟩
  have a2 : fl ((6010072887025 : ℝ) + 192322334836345 / 32) = 384644667221145 / 32 := by
    refine Coord64v.fl_eq 9 6154314675538320 (by norm_num) (by norm_num) (by norm_num) (by norm_num) ?_
    rw [abs_lt]; norm_num
  have a3 : fl ((384644667221145 / 32 : ℝ) + 6154314793212481 / 1024) = 576967004509035 / 32 := by
    refine Coord64v.fl_eq 8 (576967004509035 * 8) (by norm_num) (by norm_num) (by norm_num) (by norm_num) ?_
    rw [abs_lt]; norm_num
  have b1 : fl ((3 : ℝ) * (576967004509035 / 32)) = 1730901013527105 / 32 := by
    rw [show (3 : ℝ) * (576967004509035 / 32) = 1730901013527105 / 32 by norm_num]; exact fl_rep ⟨1730901013527105, -5, by norm_num, by norm_num, by norm_num⟩
  have b2 : fl ((470696643 / 64 : ℝ) * (470696643 / 64)) = 1730901013527105 / 32 := by
    refine Coord64v.fl_eq 7 (1730901013527105 * 4) (by norm_num) (by norm_num) (by norm_num) (by norm_num) ?_
    rw [abs_lt]; norm_num
  have sx : Acc l (v 1) 0 [(2451545, y0), (2451545 + 1 / 64, y1), (2451545 + 2 / 64, y2)] (470696643 / 64) := by
    refine ⟨2451545, ?_, 313797761 / 64, ?_, 470696643 / 64, ?_, rfl⟩
    · have := Run.add (Run.v (l := l) (ρ := at3 0 2451545 y0) 0) (Run.v 1)
      simp only [at3, e1] at this; exact this
    · have := Run.add (Run.v (l := l) (ρ := at3 2451545 (2451545 + 1 / 64) y1) 0) (Run.v 1)
      simp only [at3, e2] at this; exact this
    · have := Run.add (Run.v (l := l) (ρ := at3 (313797761 / 64) (2451545 + 2 / 64) y2) 0) (Run.v 1)
      simp only [at3, e3] at this; exact this
  have sx2 : Acc l (v 1 * v 1) 0 [(2451545, y0), (2451545 + 1 / 64, y1), (2451545 + 2 / 64, y2)] (576967004509035 / 32) := by
    refine ⟨6010072887025, ?_, 384644667221145 / 32, ?_, 576967004509035 / 32, ?_, rfl⟩
    · have := Run.add (Run.v (l := l) (ρ := at3 0 2451545 y0) 0) (m (i := 1) (j := 1))
      simp only [at3, q1, a1] at this; exact this
    · have := Run.add (Run.v (l := l) (ρ := at3 6010072887025 (2451545 + 1 / 64) y1) 0) (m (i := 1) (j := 1))
      simp only [at3, q2, a2] at this; exact this
    · have := Run.add (Run.v (l := l) (ρ := at3 (384644667221145 / 32) (2451545 + 2 / 64) y2) 0) (m (i := 1) (j := 1))
      simp only [at3, q3, a3] at this; exact this
  obtain ⟨na, h6⟩ := run_exists l (at6 3 (470696643 / 64) sy (576967004509035 / 32) sxy 0) numA
  obtain ⟨nb, h7⟩ := run_exists l (at6 3 (470696643 / 64) sy (576967004509035 / 32) sxy 0) numB
  have d : Run l (at6 3 (470696643 / 64) sy (576967004509035 / 32) sxy 0) det 0 := by
    have := Run.sub (m (ρ := at6 3 (470696643 / 64) sy (576967004509035 / 32) sxy 0) (i := 0) (j := 3)) (m (i := 1) (j := 1))
    simp only [at6, b1, b2, sub_self, fl_zero] at this
    exact this
  exact ⟨_, sy, _, sxy, 0, na, nb, sx, h2, sx2, h4, d, h6, h7, by simp [Fit64.quo], by simp [Fit64.quo]⟩

/-- C198 for (0, 0), (1, 1), (2, 2): there is a result, and it exceeds 1 by at most 10⁻¹². -/
theorem C198_example (l : Trig) : ∃ x, Fit64.CorrelationCoefficient l [(0, 0), (1, 1), (2, 2)] (some x) ∧ 1 < x ∧ x ≤ 1 + 1e-12 := by
  obtain ⟨r, h⟩ := Fit64v.corr_exists l [(0, 0), (1, 1), (2, 2)]
  have t : (1 : ℝ) / 2 ^ 375 ≤ 1 / 10 ^ 30 := one_div_le_one_div_of_le (by positivity) (by
    refine le_trans (by norm_num : (10 : ℝ) ^ 30 ≤ 2 ^ 100) (pow_le_pow_right₀ (by norm_num) (by norm_num)))
  obtain ⟨x', rfl, hx'⟩ := C198_correlation_violation h
  have s6 : Real.sqrt (6 * 6) = 6 := Real.sqrt_mul_self (by norm_num)
  obtain ⟨x, e, hx⟩ := C198_correlation_partial (κ := 1 / 10000000000000) (by simp) (by
    intro q hq
    simp only [List.mem_cons, List.not_mem_nil, or_false] at hq
    rcases hq with rfl | rfl | rfl <;> norm_num) h rfl rfl rfl rfl rfl (D := 6) (D2 := 6)
    (by simp only [fsum, List.map_cons, List.map_nil, List.sum_cons, List.sum_nil, List.length_cons, List.length_nil]; norm_num)
    (by simp only [fsum, List.map_cons, List.map_nil, List.sum_cons, List.sum_nil, List.length_cons, List.length_nil]; norm_num) rfl rfl rfl (by norm_num)
    (by
      simp only [fsum, List.map_cons, List.map_nil, List.sum_cons, List.sum_nil, List.length_cons, List.length_nil]
      generalize (1 : ℝ) / 2 ^ 375 = z at *
      norm_num
      norm_num at t
      linarith)
    (by
      simp only [fsum, List.map_cons, List.map_nil, List.sum_cons, List.sum_nil, List.length_cons, List.length_nil]
      generalize (1 : ℝ) / 2 ^ 375 = z at *
      norm_num
      norm_num at t
      linarith)
    (by
      rw [s6]
      simp only [fsum, List.map_cons, List.map_nil, List.sum_cons, List.sum_nil, List.length_cons, List.length_nil]
      generalize (1 : ℝ) / 2 ^ 375 = z at *
      norm_num
      norm_num at t
      linarith)
  cases e
  refine ⟨x', h, hx', ?_⟩
  have := le_abs_self x'
  norm_num at hx ⊢
  linarith

end Verif.Props
