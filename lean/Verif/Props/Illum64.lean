import Mathlib.Tactic
import Verif.Model.Illum64
import Verif.Props.Coord64
import Verif.Props.Lagrange64
/-!
Property C200: phase angle and illuminated fraction in double precision.
-/
namespace Verif.Props.Illum64v

open Verif.Go.F64 Verif.Go.F64.Ex Verif.Model Verif.Model.Illum64 Verif.Model.Fit64 Verif.Props.Fit64v Verif.Props.Lagrange64v

theorem c_two {l : Trig} {ρ : ℕ → ℝ} {x : ℝ} (h : Run l ρ (Ex.q 2 1) x) : x = 2 := by
  cases h
  rw [show Ex.cval 2 1 false = ((2 : ℤ) : ℝ) by simp [Ex.cval]]
  exact_mod_cast fl_rep (rep_int (n := 2) (by norm_num))

theorem c_four {l : Trig} {ρ : ℕ → ℝ} {x : ℝ} (h : Run l ρ (Ex.q 4 1) x) : x = 4 := by
  cases h
  rw [show Ex.cval 4 1 false = ((4 : ℤ) : ℝ) by simp [Ex.cval]]
  exact_mod_cast fl_rep (rep_int (n := 4) (by norm_num))

/-- The sum of two squares, with or without fusing. -/
theorem sum_inv {l : Trig} {ρ : ℕ → ℝ} {x : ℝ} (h : Run l ρ (v 0 * v 0 + v 1 * v 1) x) :
    x = fl (fl (ρ 0 * ρ 0) + fl (ρ 1 * ρ 1)) ∨ x = fl (fl (ρ 0 * ρ 0) + ρ 1 * ρ 1) ∨ x = fl (ρ 0 * ρ 0 + fl (ρ 1 * ρ 1)) := by
  cases h with
  | add a b =>
    cases a with
    | mul a1 a2 => cases b with
      | mul b1 b2 => cases a1; cases a2; cases b1; cases b2; exact Or.inl rfl
  | addMul a b1 b2 => cases a with
    | mul a1 a2 => cases a1; cases a2; cases b1; cases b2; exact Or.inr (Or.inl rfl)
  | mulAdd a b1 b2 => cases a with
    | mul a1 a2 => cases a1; cases a2; cases b1; cases b2; exact Or.inr (Or.inr rfl)

theorem cosi_inv {l : Trig} {ρ : ℕ → ℝ} {x : ℝ} (h : Run l ρ cosi x) :
    ∃ s n, (s = fl (fl (ρ 0 * ρ 0) + fl (ρ 1 * ρ 1)) ∨ s = fl (fl (ρ 0 * ρ 0) + ρ 1 * ρ 1) ∨ s = fl (ρ 0 * ρ 0 + fl (ρ 1 * ρ 1))) ∧
      (n = fl (s - fl (ρ 2 * ρ 2)) ∨ n = fl (s - ρ 2 * ρ 2)) ∧ x = fl (n / fl (fl (2 * ρ 0) * ρ 1)) := by
  cases h with
  | div a b =>
    cases b with
    | mul b1 b2 => cases b1 with
      | mul b3 b4 =>
        cases b2; cases b4
        rw [c_two b3]
        cases a with
        | sub a1 a2 => cases a2 with
          | mul a3 a4 => cases a3; cases a4; exact ⟨_, _, sum_inv a1, Or.inl rfl, rfl⟩
        | subMul a1 a3 a4 => cases a3; cases a4; exact ⟨_, _, sum_inv a1, Or.inr rfl, rfl⟩

theorem num_inv {l : Trig} {ρ : ℕ → ℝ} {x : ℝ} (h : Run l ρ num x) :
    x = fl (fl (ρ 0 * ρ 0) - fl (ρ 1 * ρ 1)) ∨ x = fl (fl (ρ 0 * ρ 0) - ρ 1 * ρ 1) ∨ x = fl (ρ 0 * ρ 0 - fl (ρ 1 * ρ 1)) := by
  cases h with
  | sub a b =>
    cases a with
    | mul a1 a2 => cases b with
      | mul b1 b2 => cases a1; cases a2; cases b1; cases b2; exact Or.inl rfl
  | subMul a b1 b2 => cases a with
    | mul a1 a2 => cases a1; cases a2; cases b1; cases b2; exact Or.inr (Or.inl rfl)
  | mulSub a b1 b2 => cases a with
    | mul a1 a2 => cases a1; cases a2; cases b1; cases b2; exact Or.inr (Or.inr rfl)

theorem den_inv {l : Trig} {ρ : ℕ → ℝ} {x : ℝ} (h : Run l ρ den x) : x = fl (fl (4 * ρ 0) * ρ 1) := by
  cases h with
  | mul b1 b2 => cases b1 with
    | mul b3 b4 =>
      cases b2; cases b4
      rw [c_four b3]

/-- A product, rounded or not. -/
theorem prod_or {x y c : ℝ} (h : c = fl (x * y) ∨ c = x * y) : |c - x * y| ≤ |x * y| / 2 ^ 53 + 1 / 2 ^ 500 := by
  rcases h with rfl | rfl
  · exact fl_tiny _
  · rw [sub_self, abs_zero]; positivity

/-- The numerator of the cosine. -/
theorem num_near {p q t s n : ℝ} (hs : s = fl (fl (p * p) + fl (q * q)) ∨ s = fl (fl (p * p) + q * q) ∨ s = fl (p * p + fl (q * q)))
    (hn : n = fl (s - fl (t * t)) ∨ n = fl (s - t * t)) :
    |n - (p * p + q * q - t * t)| ≤ 4 * (p * p + q * q + t * t) / 2 ^ 53 + 16 * (1 / 2 ^ 500) := by
  obtain ⟨a, b, ha, hb, hs⟩ : ∃ a b, (a = fl (p * p) ∨ a = p * p) ∧ (b = fl (q * q) ∨ b = q * q) ∧ s = fl (a + b) := by
    rcases hs with h | h | h
    · exact ⟨_, _, Or.inl rfl, Or.inl rfl, h⟩
    · exact ⟨_, _, Or.inl rfl, Or.inr rfl, h⟩
    · exact ⟨_, _, Or.inr rfl, Or.inl rfl, h⟩
  obtain ⟨c, hc, hn⟩ : ∃ c, (c = fl (t * t) ∨ c = t * t) ∧ n = fl (s - c) := by
    rcases hn with h | h
    · exact ⟨_, Or.inl rfl, h⟩
    · exact ⟨_, Or.inr rfl, h⟩
  have a1 := prod_or ha
  have b1 := prod_or hb
  have c1 := prod_or hc
  have s1 := fl_tiny (a + b)
  have n1 := fl_tiny (s - c)
  rw [← hs] at s1
  rw [← hn] at n1
  have P0 : 0 ≤ p * p := mul_self_nonneg _
  have Q0 : 0 ≤ q * q := mul_self_nonneg _
  have T0 : 0 ≤ t * t := mul_self_nonneg _
  rw [abs_of_nonneg P0] at a1
  rw [abs_of_nonneg Q0] at b1
  rw [abs_of_nonneg T0] at c1
  clear ha hb hc hs hn
  generalize p * p = P at *
  generalize q * q = Q at *
  generalize t * t = T at *
  have η0 : (0 : ℝ) < 1 / 2 ^ 500 := by positivity
  generalize (1 : ℝ) / 2 ^ 500 = η at *
  have ab : |a + b| ≤ P + Q + |a - P| + |b - Q| := by
    rw [show a + b = P + Q + (a - P) + (b - Q) by ring]
    refine (abs_add_le _ _).trans (add_le_add_left ((abs_add_le _ _).trans (add_le_add_left ?_ _)) _)
    rw [abs_of_nonneg (by linarith)]
  have sc : |s - c| ≤ P + Q + T + |s - (a + b)| + |a - P| + |b - Q| + |c - T| := by
    rw [show s - c = (P + Q - T) + (s - (a + b)) + (a - P) + (b - Q) + (T - c) by ring, abs_sub_comm c T]
    refine (abs_add_le _ _).trans (add_le_add_left ((abs_add_le _ _).trans (add_le_add_left ((abs_add_le _ _).trans (add_le_add_left ((abs_add_le _ _).trans (add_le_add_left ?_ _)) _)) _)) _)
    rw [abs_le]; constructor <;> linarith
  have tot : |n - (P + Q - T)| ≤ |n - (s - c)| + |s - (a + b)| + |a - P| + |b - Q| + |c - T| := by
    rw [show n - (P + Q - T) = (n - (s - c)) + (s - (a + b)) + (a - P) + (b - Q) + (T - c) by ring, abs_sub_comm c T]
    exact (abs_add_le _ _).trans (add_le_add_left ((abs_add_le _ _).trans (add_le_add_left ((abs_add_le _ _).trans (add_le_add_left (abs_add_le _ _) _)) _)) _)
  generalize |n - (s - c)| = z1 at *
  generalize |s - (a + b)| = z2 at *
  generalize |a - P| = z3 at *
  generalize |b - Q| = z4 at *
  generalize |c - T| = z5 at *
  generalize |s - c| = z6 at *
  generalize |a + b| = z7 at *
  generalize |n - (P + Q - T)| = z8 at *
  norm_num at *
  linarith

/-- A denominator of two factors with a factor k. -/
theorem den_near {k r Δ : ℝ} (hk : 1 ≤ k) (hr : 1 / 2 ^ 20 ≤ r) (hΔ : 1 / 2 ^ 20 ≤ Δ) : |fl (fl (k * r) * Δ) - k * r * Δ| ≤ 3 / 2 ^ 53 * (k * r * Δ) := by
  have r0 : 0 < r := lt_of_lt_of_le (by positivity) hr
  have Δ0 : 0 < Δ := lt_of_lt_of_le (by positivity) hΔ
  have tiny : (1 : ℝ) / 2 ^ 1022 ≤ 1 / 2 ^ 60 := one_div_le_one_div_of_le (by positivity) (pow_le_pow_right₀ (by norm_num) (by norm_num))
  have kr : 1 / 2 ^ 20 ≤ k * r := by nlinarith
  have kr0 : 0 < k * r := lt_of_lt_of_le (by positivity) kr
  obtain ⟨δ1, d1, e1⟩ := fl_delta (x := k * r) (tiny.trans (by rw [abs_of_pos kr0]; refine le_trans ?_ kr; norm_num))
  have D0 : 1 / 2 ^ 20 * (1 / 2 ^ 20) ≤ k * r * Δ := mul_le_mul kr hΔ (by positivity) kr0.le
  have D1 : 0 < k * r * Δ := mul_pos kr0 Δ0
  have e : fl (k * r) * Δ = k * r * Δ * (1 + δ1) := by rw [e1]; ring
  have d1' := abs_le.mp d1
  obtain ⟨δ2, d2, e2⟩ := fl_delta (x := fl (k * r) * Δ) (tiny.trans (by
    have h9 : 9 / 10 ≤ 1 + δ1 := by norm_num at d1' ⊢; linarith
    rw [e, abs_of_pos (mul_pos D1 (by linarith))]
    refine le_trans ?_ (mul_le_mul D0 h9 (by norm_num) D1.le)
    norm_num))
  rw [e2, e, show k * r * Δ * (1 + δ1) * (1 + δ2) - k * r * Δ = (k * r * Δ) * (δ1 + δ2 + δ1 * δ2) by ring, abs_mul, abs_of_pos D1, mul_comm]
  refine mul_le_mul_of_nonneg_right ?_ D1.le
  have h12 : |δ1 * δ2| ≤ 1 / 2 ^ 53 * (1 / 2 ^ 53) := by rw [abs_mul]; exact mul_le_mul d1 d2 (abs_nonneg _) (by positivity)
  refine (abs_add_le _ _).trans ?_
  have := abs_add_le δ1 δ2
  generalize |δ1 * δ2| = z at *
  norm_num at *
  linarith

/-- The quotient of a numerator N, at most A in size, and a denominator D. -/
theorem quot_near {n d N A D : ℝ} {a : ℝ} (ha : 0 ≤ a) (hA : |N| ≤ A) (hD : 1 / 2 ^ 40 ≤ D) (hn : |n - N| ≤ a * A / 2 ^ 53 + 16 * (1 / 2 ^ 500))
    (hd : |d - D| ≤ 3 / 2 ^ 53 * D) : |fl (n / d) - N / D| ≤ (3 * a + 11) / 2 ^ 53 * (A / D) + 1 / 2 ^ 400 := by
  have D0 : 0 < D := lt_of_lt_of_le (by positivity) hD
  have hA0 : 0 ≤ A := (abs_nonneg _).trans hA
  have h := (quo_near hn hd (by norm_num; linarith) D0).2
  refine h.trans ?_
  have hND : |N / D| ≤ A / D := by rw [abs_div, abs_of_pos D0]; exact div_le_div_of_nonneg_right hA D0.le
  have hAD : 0 ≤ A / D := div_nonneg hA0 D0.le
  have hη : 48 / D * (1 / 2 ^ 500) + 1 / 2 ^ 500 ≤ (1 : ℝ) / 2 ^ 400 := by
    have h1 : 48 / D ≤ 2 ^ 46 := by
      rw [div_le_iff₀ D0]
      calc (48 : ℝ) ≤ 2 ^ 46 * (1 / 2 ^ 40) := by norm_num
        _ ≤ _ := by gcongr
    have h2 : 48 / D * (1 / 2 ^ 500) + 1 / 2 ^ 500 ≤ 2 ^ 47 * (1 / (2 : ℝ) ^ 500) := by
      have : (0 : ℝ) < 1 / 2 ^ 500 := by positivity
      generalize (1 : ℝ) / 2 ^ 500 = η at *
      nlinarith
    refine h2.trans ?_
    rw [show (500 : ℕ) = 47 + 453 by norm_num, pow_add, one_div, mul_inv, ← mul_assoc, mul_inv_cancel₀ (by positivity), one_mul, ← one_div]
    exact one_div_le_one_div_of_le (by positivity) (pow_le_pow_right₀ (by norm_num) (by norm_num))
  have e : 3 / D * (a * A / 2 ^ 53 + 16 * (1 / 2 ^ 500) + |N / D| * (3 / 2 ^ 53 * D)) =
      3 * a / 2 ^ 53 * (A / D) + 48 / D * (1 / 2 ^ 500) + 9 / 2 ^ 53 * |N / D| := by
    field_simp
    ring
  rw [e]
  generalize |N / D| = w at *
  have e2 : (3 * a + 11) / 2 ^ 53 * (A / D) = 3 * a / 2 ^ 53 * (A / D) + 11 / 2 ^ 53 * (A / D) := by ring
  rw [e2]
  generalize 3 * a / 2 ^ 53 * (A / D) = w1 at *
  generalize A / D = w2 at *
  generalize 48 / D * (1 / 2 ^ 500) = w3 at *
  generalize (1 : ℝ) / 2 ^ 500 = w4 at *
  generalize (1 : ℝ) / 2 ^ 400 = w5 at *
  norm_num at *
  linarith

theorem cos_near {l : Trig} {r Δ R i x : ℝ} (hr : 1 / 2 ^ 20 ≤ r) (hΔ : 1 / 2 ^ 20 ≤ Δ) (hi : R ^ 2 = r ^ 2 + Δ ^ 2 - 2 * r * Δ * Real.cos i)
    (h : Run l (at3 r Δ R) cosi x) : |x - Real.cos i| ≤ 3e-15 * ((r ^ 2 + Δ ^ 2 + R ^ 2) / (2 * r * Δ)) + 1 / 2 ^ 400 := by
  obtain ⟨s, n, hs, hn, rfl⟩ := cosi_inv h
  have r0 : 0 < r := lt_of_lt_of_le (by positivity) hr
  have Δ0 : 0 < Δ := lt_of_lt_of_le (by positivity) hΔ
  have hD : 1 / 2 ^ 40 ≤ 2 * r * Δ := by
    have : 1 / 2 ^ 20 * (1 / 2 ^ 20) ≤ r * Δ := mul_le_mul hr hΔ (by positivity) r0.le
    norm_num at this ⊢
    linarith
  have hN : |r * r + Δ * Δ - R * R| ≤ r * r + Δ * Δ + R * R := by
    rw [abs_le]
    constructor <;> nlinarith [mul_self_nonneg r, mul_self_nonneg Δ, mul_self_nonneg R]
  have k := quot_near (by norm_num) hN hD (num_near hs hn) (den_near (k := 2) (by norm_num) hr hΔ)
  have e : (r * r + Δ * Δ - R * R) / (2 * r * Δ) = Real.cos i := by
    rw [div_eq_iff (by positivity)]
    linarith
  rw [e] at k
  refine k.trans (add_le_add_left ?_ _)
  rw [show r ^ 2 + Δ ^ 2 + R ^ 2 = r * r + Δ * Δ + R * R by ring]
  refine mul_le_mul_of_nonneg_right (by norm_num) ?_
  have := mul_self_nonneg R
  positivity

end Verif.Props.Illum64v

namespace Verif.Props

open Verif.Go.F64 Verif.Model Illum64v Coord64v Fit64v Lagrange64v Verif.Model.Fit64

/-- C200: for a planet exactly in line with the Sun and the Earth, beyond the Sun, PhaseAngle may be NaN for every way of compiling: here r = 0.7267…,
R = 0.9914… and Δ is exactly r + R. -/
theorem C200_phase_violation : ∃ r R : ℝ, Rep r ∧ Rep R ∧ Rep (r + R) ∧ 0.7 < r ∧ r < 0.73 ∧ 0.98 < R ∧ R < 1.02 ∧
    ∀ l f out, Illum64.PhaseAngle l f r (r + R) R out → out = none := by
  refine ⟨780310109 / 2 ^ 30, 1064580153 / 2 ^ 30, ⟨780310109, -30, by norm_num, by norm_num, by norm_num⟩, ⟨1064580153, -30, by norm_num, by norm_num, by norm_num⟩,
    ⟨1844890262, -30, by norm_num, by norm_num, by norm_num⟩, by norm_num, by norm_num, by norm_num, by norm_num, ?_⟩
  rintro l f out ⟨x, hx, rfl⟩
  obtain ⟨s, n, hs, hn, rfl⟩ := cosi_inv hx
  simp only [at3] at hs hn ⊢
  have rr : fl ((780310109 / 2 ^ 30 : ℝ) * (780310109 / 2 ^ 30)) = 4756905204746812 / 2 ^ 53 :=
    fl_eq 53 4756905204746812 (by norm_num) (by norm_num) (by norm_num) (by norm_num) (by rw [abs_lt]; constructor <;> norm_num)
  have dd : fl ((780310109 / 2 ^ 30 + 1064580153 / 2 ^ 30 : ℝ) * (780310109 / 2 ^ 30 + 1064580153 / 2 ^ 30)) = 6647695466450056 / 2 ^ 51 :=
    fl_eq 51 6647695466450056 (by norm_num) (by norm_num) (by norm_num) (by norm_num) (by rw [abs_lt]; constructor <;> norm_num)
  have RR : fl ((1064580153 / 2 ^ 30 : ℝ) * (1064580153 / 2 ^ 30)) = 8854147673136745 / 2 ^ 53 :=
    fl_eq 53 8854147673136745 (by norm_num) (by norm_num) (by norm_num) (by norm_num) (by rw [abs_lt]; constructor <;> norm_num)
  rw [rr, dd] at hs
  have hs' : s = 7836921767636759 / 2 ^ 51 := by
    rcases hs with rfl | rfl | rfl <;>
      exact fl_eq 51 7836921767636759 (by norm_num) (by norm_num) (by norm_num) (by norm_num) (by rw [abs_lt]; constructor <;> norm_num)
  rw [RR, hs'] at hn
  have hn' : n = 5623384849352573 / 2 ^ 51 := by
    rcases hn with rfl | rfl <;>
      exact fl_eq 51 5623384849352573 (by norm_num) (by norm_num) (by norm_num) (by norm_num) (by rw [abs_lt]; constructor <;> norm_num)
  have r2 : fl (2 * (780310109 / 2 ^ 30 : ℝ)) = 2 * (780310109 / 2 ^ 30) := fl_rep ⟨780310109, -29, by norm_num, by norm_num, by norm_num⟩
  have hd : fl (2 * (780310109 / 2 ^ 30 : ℝ) * (780310109 / 2 ^ 30 + 1064580153 / 2 ^ 30)) = 5623384849352572 / 2 ^ 51 :=
    fl_eq 51 5623384849352572 (by norm_num) (by norm_num) (by norm_num) (by norm_num) (by rw [abs_lt]; constructor <;> norm_num)
  rw [hn', r2, hd]
  have hq : fl ((5623384849352573 / 2 ^ 51 : ℝ) / (5623384849352572 / 2 ^ 51)) = 4503599627370497 / 2 ^ 52 :=
    fl_eq 52 4503599627370497 (by norm_num) (by norm_num) (by norm_num) (by norm_num) (by rw [abs_lt]; constructor <;> norm_num)
  rw [hq, Illum64.acos, if_neg (by norm_num)]

/-- C200: for the same distances Fraction is above 1. -/
theorem C200_fraction_violation : ∃ r R : ℝ, Rep r ∧ Rep R ∧ Rep (r + R) ∧ 0.7 < r ∧ r < 0.73 ∧ 0.98 < R ∧ R < 1.02 ∧
    ∀ l k, Illum64.Fraction l r (r + R) R k → 1 < k := by
  refine ⟨780310109 / 2 ^ 30, 1064580153 / 2 ^ 30, ⟨780310109, -30, by norm_num, by norm_num, by norm_num⟩, ⟨1064580153, -30, by norm_num, by norm_num, by norm_num⟩,
    ⟨1844890262, -30, by norm_num, by norm_num, by norm_num⟩, by norm_num, by norm_num, by norm_num, by norm_num, ?_⟩
  rintro l k ⟨n, d, hn, hd, rfl⟩
  have hn := num_inv hn
  have hd := den_inv hd
  simp only [at3] at hn hd
  have s0 : fl (780310109 / 2 ^ 30 + (780310109 / 2 ^ 30 + 1064580153 / 2 ^ 30) : ℝ) = 2625200371 / 2 ^ 30 := by
    rw [show (780310109 / 2 ^ 30 + (780310109 / 2 ^ 30 + 1064580153 / 2 ^ 30) : ℝ) = 2625200371 / 2 ^ 30 by norm_num]
    exact fl_rep ⟨2625200371, -30, by norm_num, by norm_num, by norm_num⟩
  rw [s0] at hn
  have ss : fl ((2625200371 / 2 ^ 30 : ℝ) * (2625200371 / 2 ^ 30)) = 6730153308494666 / 2 ^ 50 :=
    fl_eq 50 6730153308494666 (by norm_num) (by norm_num) (by norm_num) (by norm_num) (by rw [abs_lt]; constructor <;> norm_num)
  have RR : fl ((1064580153 / 2 ^ 30 : ℝ) * (1064580153 / 2 ^ 30)) = 8854147673136745 / 2 ^ 53 :=
    fl_eq 53 8854147673136745 (by norm_num) (by norm_num) (by norm_num) (by norm_num) (by rw [abs_lt]; constructor <;> norm_num)
  rw [ss, RR] at hn
  have hn' : n = 5623384849352573 / 2 ^ 50 := by
    rcases hn with rfl | rfl | rfl <;>
      exact fl_eq 50 5623384849352573 (by norm_num) (by norm_num) (by norm_num) (by norm_num) (by rw [abs_lt]; constructor <;> norm_num)
  have r2 : fl (4 * (780310109 / 2 ^ 30 : ℝ)) = 4 * (780310109 / 2 ^ 30) := fl_rep ⟨780310109, -28, by norm_num, by norm_num, by norm_num⟩
  have hd' : fl (4 * (780310109 / 2 ^ 30 : ℝ) * (780310109 / 2 ^ 30 + 1064580153 / 2 ^ 30)) = 5623384849352572 / 2 ^ 50 :=
    fl_eq 50 5623384849352572 (by norm_num) (by norm_num) (by norm_num) (by norm_num) (by rw [abs_lt]; constructor <;> norm_num)
  rw [r2, hd'] at hd
  rw [hn', hd]
  have hq : fl ((5623384849352573 / 2 ^ 50 : ℝ) / (5623384849352572 / 2 ^ 50)) = 4503599627370497 / 2 ^ 52 :=
    fl_eq 52 4503599627370497 (by norm_num) (by norm_num) (by norm_num) (by norm_num) (by rw [abs_lt]; constructor <;> norm_num)
  rw [hq]
  norm_num

/-- C200 (missing: values outside the range of the arc cosine, which occur): for a triangle of sides r, Δ, R with the angle i at the planet PhaseAngle is not NaN when
the cosine of i is further from ±1 than ε = 3·10⁻¹⁵(r² + Δ² + R²)/(2rΔ) + 2⁻⁴⁰⁰, and the cosine of what it returns differs from that of i by at most ε + 10⁻¹². -/
theorem C200_phase_partial {l : Trig} {f : Sep64.Inv} (hf : f.Ok) {r Δ R i : ℝ} (hr : 1 / 2 ^ 20 ≤ r) (hΔ : 1 / 2 ^ 20 ≤ Δ)
    (hi : R ^ 2 = r ^ 2 + Δ ^ 2 - 2 * r * Δ * Real.cos i) {out : Option ℝ} (h : Illum64.PhaseAngle l f r Δ R out) :
    (|Real.cos i| ≤ 1 - (3e-15 * ((r ^ 2 + Δ ^ 2 + R ^ 2) / (2 * r * Δ)) + 1 / 2 ^ 400) → ∃ a, out = some a) ∧
    ∀ a, out = some a → |Real.cos a - Real.cos i| ≤ 3e-15 * ((r ^ 2 + Δ ^ 2 + R ^ 2) / (2 * r * Δ)) + 1 / 2 ^ 400 + 1e-12 := by
  obtain ⟨x, hx, rfl⟩ := h
  have k := cos_near hr hΔ hi hx
  constructor
  · intro hc
    have : |x| ≤ 1 := by
      have := abs_sub_abs_le_abs_sub x (Real.cos i)
      linarith
    exact ⟨f.acos x, by rw [Illum64.acos, if_pos this]⟩
  · intro a ha
    by_cases h1 : |x| ≤ 1
    · rw [Illum64.acos, if_pos h1] at ha
      obtain rfl : f.acos x = a := by simpa using ha
      have h2 := hf.acos x h1
      have h3 : |Real.cos (f.acos x) - Real.cos (Real.arccos x)| ≤ |f.acos x - Real.arccos x| := by
        have := Real.abs_cos_sub_cos_le (f.acos x) (Real.arccos x)
        exact this
      rw [Real.cos_arccos (abs_le.mp h1).1 (abs_le.mp h1).2] at h3
      have h4 := abs_sub_le (Real.cos (f.acos x)) x (Real.cos i)
      linarith
    · rw [Illum64.acos, if_neg h1] at ha
      simp at ha

/-- C200 (missing: not in [0, 1]): Fraction differs from (1 + cos i)/2 by at most 4·10⁻¹⁵((r + Δ)² + R²)/(4rΔ) + 2⁻⁴⁰⁰. -/
theorem C200_fraction_partial {l : Trig} {r Δ R i : ℝ} (hr : 1 / 2 ^ 20 ≤ r) (hΔ : 1 / 2 ^ 20 ≤ Δ)
    (hi : R ^ 2 = r ^ 2 + Δ ^ 2 - 2 * r * Δ * Real.cos i) {k : ℝ} (h : Illum64.Fraction l r Δ R k) :
    |k - (1 + Real.cos i) / 2| ≤ 4e-15 * (((r + Δ) ^ 2 + R ^ 2) / (4 * r * Δ)) + 1 / 2 ^ 400 := by
  obtain ⟨n, d, hn, hd, rfl⟩ := h
  have hd := den_inv hd
  simp only [at3] at hd
  have r0 : 0 < r := lt_of_lt_of_le (by positivity) hr
  have Δ0 : 0 < Δ := lt_of_lt_of_le (by positivity) hΔ
  have hD : 1 / 2 ^ 40 ≤ 4 * r * Δ := by
    have : 1 / 2 ^ 20 * (1 / 2 ^ 20) ≤ r * Δ := mul_le_mul hr hΔ (by positivity) r0.le
    norm_num at this ⊢
    linarith
  have hdd := den_near (k := 4) (by norm_num) hr hΔ
  rw [← hd] at hdd
  have tiny : (1 : ℝ) / 2 ^ 1022 ≤ 1 / 2 ^ 20 := one_div_le_one_div_of_le (by positivity) (pow_le_pow_right₀ (by norm_num) (by norm_num))
  obtain ⟨δ, dδ, eδ⟩ := fl_delta (x := r + Δ) (tiny.trans (by rw [abs_of_pos (by linarith)]; linarith))
  have dn := diff_near hn
  simp only [at3] at dn
  have S0 : 0 < (r + Δ) * (r + Δ) := by positivity
  have R0 := mul_self_nonneg R
  have es : fl (r + Δ) * fl (r + Δ) = (r + Δ) * (r + Δ) * (1 + (2 * δ + δ * δ)) := by rw [eδ]; ring
  rw [es, abs_of_nonneg R0] at dn
  have hδ2 : |2 * δ + δ * δ| ≤ 5 / 2 / 2 ^ 53 := by
    have h1 : |δ * δ| ≤ 1 / 2 ^ 53 * (1 / 2 ^ 53) := by rw [abs_mul]; exact mul_le_mul dδ dδ (abs_nonneg _) (by positivity)
    have h2 : |2 * δ| ≤ 2 * (1 / 2 ^ 53) := by rw [abs_mul, abs_of_pos (by norm_num : (0 : ℝ) < 2)]; linarith
    refine (abs_add_le _ _).trans ?_
    generalize |δ * δ| = z at *
    norm_num at *
    linarith
  generalize 2 * δ + δ * δ = w at *
  set S := (r + Δ) * (r + Δ) with hS
  have hw := abs_le.mp hδ2
  have hSw : |S * (1 + w)| ≤ 1.01 * S := by
    rw [abs_mul, abs_of_pos S0, mul_comm]
    refine mul_le_mul_of_nonneg_right ?_ S0.le
    rw [abs_le]; norm_num at hw ⊢; constructor <;> linarith
  have hSw2 : |S * (1 + w) - S| ≤ 5 / 2 / 2 ^ 53 * S := by
    rw [show S * (1 + w) - S = w * S by ring, abs_mul, abs_of_pos S0]
    exact mul_le_mul_of_nonneg_right hδ2 S0.le
  have hn2 : |n - (S - R * R)| ≤ 6 * (S + R * R) / 2 ^ 53 + 16 * (1 / 2 ^ 500) := by
    have h1 : |n - (S - R * R)| ≤ |n - (S * (1 + w) - R * R)| + |S * (1 + w) - S| := by
      rw [show n - (S - R * R) = (n - (S * (1 + w) - R * R)) + (S * (1 + w) - S) by ring]
      exact abs_add_le _ _
    rw [show (4 : ℝ) / 2 ^ 500 = 4 * (1 / 2 ^ 500) by ring] at dn
    have η0 : (0 : ℝ) < 1 / 2 ^ 500 := by positivity
    generalize (1 : ℝ) / 2 ^ 500 = η at *
    generalize |S * (1 + w)| = z1 at *
    generalize |S * (1 + w) - S| = z2 at *
    generalize |n - (S * (1 + w) - R * R)| = z3 at *
    generalize |n - (S - R * R)| = z4 at *
    generalize R * R = z5 at *
    norm_num at *
    linarith
  have hN : |S - R * R| ≤ S + R * R := by
    rw [abs_le]
    constructor <;> linarith
  have k := quot_near (by norm_num) hN hD hn2 hdd
  have e : (S - R * R) / (4 * r * Δ) = (1 + Real.cos i) / 2 := by
    rw [div_eq_iff (by positivity), hS]
    linarith
  rw [e] at k
  refine k.trans (add_le_add_left ?_ _)
  rw [show (r + Δ) ^ 2 + R ^ 2 = S + R * R by rw [hS]; ring]
  refine mul_le_mul_of_nonneg_right (by norm_num) ?_
  positivity

/-- C200 for r = 3, Δ = 4, R = 5, a right angle at the planet: the phase angle exists and half of the disk is illuminated. -/
theorem C200_example (l : Trig) {f : Sep64.Inv} (hf : f.Ok) : (∃ a, Illum64.PhaseAngle l f 3 4 5 (some a) ∧ |Real.cos a| ≤ 2e-12) ∧
    ∃ k, Illum64.Fraction l 3 4 5 k ∧ |k - 1 / 2| ≤ 1e-14 := by
  have hi : (5 : ℝ) ^ 2 = 3 ^ 2 + 4 ^ 2 - 2 * 3 * 4 * Real.cos (Real.pi / 2) := by rw [Real.cos_pi_div_two]; norm_num
  have e : (1 : ℝ) / 2 ^ 400 ≤ 1 / 2 ^ 60 := one_div_le_one_div_of_le (by positivity) (pow_le_pow_right₀ (by norm_num) (by norm_num))
  constructor
  · obtain ⟨x, hx⟩ := run_exists l (at3 3 4 5) Illum64.cosi
    have hp : Illum64.PhaseAngle l f 3 4 5 (Illum64.acos f x) := ⟨x, hx, rfl⟩
    obtain ⟨h1, h2⟩ := C200_phase_partial hf (by norm_num) (by norm_num) hi hp
    obtain ⟨a, ha⟩ := h1 (by
      rw [Real.cos_pi_div_two, abs_zero]
      generalize (1 : ℝ) / 2 ^ 400 = k at *
      norm_num at *
      linarith)
    refine ⟨a, ha ▸ hp, ?_⟩
    have := h2 a ha
    rw [Real.cos_pi_div_two, sub_zero] at this
    generalize (1 : ℝ) / 2 ^ 400 = k at *
    norm_num at *
    linarith
  · obtain ⟨n, hn⟩ := run_exists l (at3 (fl (3 + 4)) 5 0) Illum64.num
    obtain ⟨d, hd⟩ := run_exists l (at3 3 4 0) Illum64.den
    refine ⟨_, ⟨n, d, hn, hd, rfl⟩, ?_⟩
    have := C200_fraction_partial (l := l) (by norm_num) (by norm_num) hi ⟨n, d, hn, hd, rfl⟩
    rw [Real.cos_pi_div_two] at this
    generalize (1 : ℝ) / 2 ^ 400 = k at *
    generalize fl (n / d) = w at *
    norm_num at *
    linarith

end Verif.Props
