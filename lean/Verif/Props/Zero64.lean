import Mathlib.Tactic
import Verif.Model.Zero64
import Verif.Props.Fit64
/-!
Property C208: zeros of a table of three values in double precision.
-/
namespace Verif.Props.Zero64v

open Verif.Go.F64 Verif.Model.Kepler64 Verif.Model.Zero64 Verif.Props.Fit64v

/-- The polynomial of degree two with the values y0, y1, y2 at −1, 0, 1 (Lagrange's form). -/
noncomputable def parabola (y0 y1 y2 n : ℝ) : ℝ := y0 * (n * (n - 1) / 2) + y1 * (1 - n ^ 2) + y2 * (n * (n + 1) / 2)

theorem eps_le {Y : ℝ} (hY : 1 / 2 ^ 400 ≤ Y) : (1 : ℝ) / 2 ^ 500 ≤ 1 / 2 ^ 100 * Y := by
  have : (1 : ℝ) / 2 ^ 500 = 1 / 2 ^ 100 * (1 / 2 ^ 400) := by
    rw [div_mul_div_comm, ← pow_add]; norm_num
  rw [this]
  exact mul_le_mul_of_nonneg_left hY (by positivity)

/-- Rounding, with errors in units of Y. -/
theorem rd {x X Y e B k : ℝ} (hY : 1 / 2 ^ 400 ≤ Y) (h : |x - X| ≤ e * Y) (hX : |X| ≤ B * Y) (hk : e + (B + e) / 2 ^ 53 + 1 / 2 ^ 100 ≤ k) :
    |fl x - X| ≤ k * Y := by
  have f := fl_tiny x
  have g := eps_le hY
  have y0 : 0 ≤ Y := le_trans (by positivity) hY
  have t := abs_sub_le (fl x) x X
  have s := abs_sub_abs_le_abs_sub x X
  have hx : |x| / 2 ^ 53 ≤ (B * Y + e * Y) / 2 ^ 53 := div_le_div_of_nonneg_right (by linarith) (by positivity)
  have z := mul_le_mul_of_nonneg_right hk y0
  have e1 : (e + (B + e) / 2 ^ 53 + 1 / 2 ^ 100) * Y = e * Y + (B * Y + e * Y) / 2 ^ 53 + 1 / 2 ^ 100 * Y := by ring
  rw [e1] at z
  linarith

theorem times {n c C Y e b k : ℝ} (y0 : 0 ≤ Y) (hn : |n| ≤ b) (h : |c - C| ≤ e * Y) (hk : b * e ≤ k) : |n * c - n * C| ≤ k * Y := by
  rw [← mul_sub, abs_mul]
  have := mul_le_mul hn h (abs_nonneg _) ((abs_nonneg _).trans hn)
  refine this.trans ?_
  rw [← mul_assoc]
  exact mul_le_mul_of_nonneg_right hk y0

theorem plus {a A b B Y e f k : ℝ} (y0 : 0 ≤ Y) (ha : |a - A| ≤ e * Y) (hb : |b - B| ≤ f * Y) (hk : e + f ≤ k) : |a + b - (A + B)| ≤ k * Y := by
  rw [show a + b - (A + B) = (a - A) + (b - B) by ring]
  refine (abs_add_le _ _).trans ?_
  have := mul_le_mul_of_nonneg_right hk y0
  linarith

theorem size {a A b B Y k : ℝ} (y0 : 0 ≤ Y) (ha : |a| ≤ A * Y) (hb : |b| ≤ B * Y) (hk : A + B ≤ k) : |a + b| ≤ k * Y := by
  refine (abs_add_le _ _).trans ?_
  have := mul_le_mul_of_nonneg_right hk y0
  linarith

theorem sizeMul {n c C Y b k : ℝ} (y0 : 0 ≤ Y) (hn : |n| ≤ b) (h : |c| ≤ C * Y) (hk : b * C ≤ k) : |n * c| ≤ k * Y := by
  rw [abs_mul]
  refine (mul_le_mul hn h (abs_nonneg _) ((abs_nonneg _).trans hn)).trans ?_
  rw [← mul_assoc]
  exact mul_le_mul_of_nonneg_right hk y0

/-- What the test of `iterate` says. -/
theorem near_close {n0 n1 : ℝ} (h : Near n0 n1) (h1 : |n1| ≤ 1) : |n0| ≤ 1.01 ∧ |n1 - n0| ≤ 9.95 / 2 ^ 53 := by
  obtain ⟨hn, h⟩ := h
  have fk := fl_tiny (1e-15 : ℝ)
  have fq := fl_tiny (fl (n1 - n0) / n0)
  have fz := fl_tiny (n1 - n0)
  have he : (1 : ℝ) / 2 ^ 500 ≤ 1 / 2 ^ 100 := one_div_le_one_div_of_le (by positivity) (pow_le_pow_right₀ (by norm_num) (by norm_num))
  have p0 : (0 : ℝ) ≤ 1 / 2 ^ 500 := by positivity
  generalize (1 : ℝ) / 2 ^ 500 = ε at *
  have kb : fl (1e-15 : ℝ) ≤ 1.0001e-15 := by
    have := (abs_le.mp fk).2
    rw [abs_of_pos (by norm_num : (0 : ℝ) < 1e-15)] at this
    norm_num at *
    linarith
  generalize fl (1e-15 : ℝ) = κ at *
  have s := abs_sub_abs_le_abs_sub (fl (n1 - n0) / n0) (fl (fl (n1 - n0) / n0))
  rw [abs_sub_comm (fl (n1 - n0) / n0) (fl (fl (n1 - n0) / n0))] at s
  have tb : |fl (n1 - n0) / n0| ≤ 1.001e-15 := by
    generalize |fl (fl (n1 - n0) / n0) - fl (n1 - n0) / n0| = w1 at *
    generalize |fl (fl (n1 - n0) / n0)| = w2 at *
    generalize |fl (n1 - n0) / n0| = w3 at *
    norm_num at *
    linarith
  rw [abs_div, div_le_iff₀ (abs_pos.mpr hn)] at tb
  have s2 := abs_sub_abs_le_abs_sub (n1 - n0) (fl (n1 - n0))
  rw [abs_sub_comm (n1 - n0) (fl (n1 - n0))] at s2
  have s3 := abs_sub_abs_le_abs_sub n0 n1
  rw [abs_sub_comm n0 n1] at s3
  clear h fq s
  generalize |fl (n1 - n0) - (n1 - n0)| = w1 at *
  generalize |fl (n1 - n0)| = w2 at *
  generalize |n1 - n0| = w3 at *
  generalize |n0| = w4 at *
  generalize |n1| = w5 at *
  constructor
  · norm_num at *
    linarith
  · norm_num at *
    linarith

/-- A successful iteration ends with a step and the test. -/
theorem iter_last {step : ℝ → Option ℝ → Prop} {k : ℕ} {n0 : ℝ} {r : Option ℝ} (h : Iter step k n0 r) : ∀ n, r = some n → ∃ m, step m (some n) ∧ Near m n := by
  induction h with
  | limit => intro n h; cases h
  | bad _ => intro n h; cases h
  | done hs hn => intro n h; cases h; exact ⟨_, hs, hn⟩
  | next _ _ _ ih => exact ih

/-- The place for an interpolating factor. -/
theorem place_near {x1 x3 y0 y1 y2 X n t : ℝ} (hX : 1 / 2 ^ 400 ≤ X) (hx1 : |x1| ≤ X) (hx3 : |x3| ≤ X) (hn1 : |n| ≤ 1)
    (ht : MulAdd (NewLen3 x1 x3 y0 y1 y2).xSum (NewLen3 x1 x3 y0 y1 y2).xDiff n t) :
    |fl (0.5 * t) - ((x1 + x3) / 2 + n * ((x3 - x1) / 2))| ≤ 8 / 2 ^ 53 * X := by
  have X0 : 0 ≤ X := (abs_nonneg _).trans hx1
  have b1 := abs_le.mp hx1
  have b3 := abs_le.mp hx3
  have hS : |x3 + x1| ≤ 2 * X := by rw [abs_le]; constructor <;> linarith
  have hD : |x3 - x1| ≤ 2 * X := by rw [abs_le]; constructor <;> linarith
  have fS : |fl (x3 + x1) - (x3 + x1)| ≤ 2.01 / 2 ^ 53 * X := rd (e := 0) (B := 2) hX (by simp) hS (by norm_num)
  have fD : |fl (x3 - x1) - (x3 - x1)| ≤ 2.01 / 2 ^ 53 * X := rd (e := 0) (B := 2) hX (by simp) hD (by norm_num)
  have p : |n * fl (x3 - x1) - n * (x3 - x1)| ≤ 2.01 / 2 ^ 53 * X := times X0 hn1 fD (by norm_num)
  have sp : |n * (x3 - x1)| ≤ 2 * X := sizeMul X0 hn1 hD (by norm_num)
  have sz : |x3 + x1 + n * (x3 - x1)| ≤ 4 * X := size X0 hS sp (by norm_num)
  have tn : |t - (x3 + x1 + n * (x3 - x1))| ≤ 10.1 / 2 ^ 53 * X := by
    have hs : (NewLen3 x1 x3 y0 y1 y2).xSum = fl (x3 + x1) := rfl
    have hd : (NewLen3 x1 x3 y0 y1 y2).xDiff = fl (x3 - x1) := rfl
    rw [MulAdd, hs, hd, mul_comm _ n] at ht
    rcases ht with rfl | rfl
    · exact rd hX (plus X0 fS (rd (k := 4.02 / 2 ^ 53) hX p sp (by norm_num)) (le_refl _)) sz (by norm_num)
    · exact rd hX (plus X0 fS p (le_refl _)) sz (by norm_num)
  have hh := times (n := 0.5) (b := 0.5) (k := 5.05 / 2 ^ 53) X0 (by rw [abs_of_pos] <;> norm_num) tn (by norm_num)
  have r := rd (k := 8 / 2 ^ 53) hX hh (sizeMul (n := 0.5) (b := 0.5) (k := 2) X0 (by rw [abs_of_pos] <;> norm_num) sz (by norm_num)) (by norm_num)
  rwa [show (0.5 : ℝ) * (x3 + x1 + n * (x3 - x1)) = (x1 + x3) / 2 + n * ((x3 - x1) / 2) by norm_num; ring] at r

section
variable {x1 x3 y0 y1 y2 Y : ℝ} (hY : 1 / 2 ^ 400 ≤ Y) (h0 : |y0| ≤ Y) (h1 : |y1| ≤ Y) (h2 : |y2| ≤ Y)
include hY h0 h1 h2

theorem table_near : |(NewLen3 x1 x3 y0 y1 y2).c - (y2 - 2 * y1 + y0)| ≤ 8.4 / 2 ^ 53 * Y ∧ |(NewLen3 x1 x3 y0 y1 y2).abSum - (y2 - y0)| ≤ 6.4 / 2 ^ 53 * Y ∧
    |y2 - 2 * y1 + y0| ≤ 4 * Y ∧ |y2 - y0| ≤ 2 * Y := by
  have y0' : 0 ≤ Y := (abs_nonneg _).trans h0
  have b0 := abs_le.mp h0
  have b1 := abs_le.mp h1
  have b2 := abs_le.mp h2
  have ha : |fl (y1 - y0) - (y1 - y0)| ≤ 2.1 / 2 ^ 53 * Y := rd (e := 0) (B := 2) hY (by simp) (by rw [abs_le]; constructor <;> linarith) (by norm_num)
  have hb : |fl (y2 - y1) - (y2 - y1)| ≤ 2.1 / 2 ^ 53 * Y := rd (e := 0) (B := 2) hY (by simp) (by rw [abs_le]; constructor <;> linarith) (by norm_num)
  have hC : |y2 - 2 * y1 + y0| ≤ 4 * Y := by rw [abs_le]; constructor <;> linarith
  have hA : |y2 - y0| ≤ 2 * Y := by rw [abs_le]; constructor <;> linarith
  refine ⟨?_, ?_, hC, hA⟩
  · refine rd (e := 4.2 / 2 ^ 53) (B := 4) hY ?_ hC (by norm_num)
    rw [show fl (y2 - y1) - fl (y1 - y0) - (y2 - 2 * y1 + y0) = (fl (y2 - y1) - (y2 - y1)) - (fl (y1 - y0) - (y1 - y0)) by ring]
    refine (abs_sub _ _).trans ?_
    rw [show (4.2 / 2 ^ 53 : ℝ) * Y = 2.1 / 2 ^ 53 * Y + 2.1 / 2 ^ 53 * Y by ring]
    linarith
  · refine rd (e := 4.2 / 2 ^ 53) (B := 2) hY ?_ hA (by norm_num)
    have := plus y0' ha hb (by norm_num : _ ≤ (4.2 / 2 ^ 53 : ℝ))
    rwa [show y1 - y0 + (y2 - y1) = y2 - y0 by ring] at this

omit h0 h1 h2 in
/-- A product and a sum. -/
theorem mulAdd_near {a A c C n s : ℝ} (h : MulAdd a c n s) (hn : |n| ≤ 1.01) (ha : |a - A| ≤ 6.4 / 2 ^ 53 * Y) (hA : |A| ≤ 2 * Y)
    (hc : |c - C| ≤ 8.4 / 2 ^ 53 * Y) (hC : |C| ≤ 4 * Y) : |s - (A + n * C)| ≤ 26 / 2 ^ 53 * Y := by
  have y0' : 0 ≤ Y := le_trans (by positivity) hY
  have t : |n * c - n * C| ≤ 8.5 / 2 ^ 53 * Y := times y0' hn hc (by norm_num)
  have sz : |n * C| ≤ 4.04 * Y := sizeMul y0' hn hC (by norm_num)
  have sz2 : |A + n * C| ≤ 6.04 * Y := size y0' hA sz (by norm_num)
  rw [MulAdd, mul_comm c n] at h
  rcases h with rfl | rfl
  · have f : |fl (n * c) - n * C| ≤ 12.6 / 2 ^ 53 * Y := rd hY t sz (by norm_num)
    exact rd hY (plus y0' ha f (le_refl _)) sz2 (by norm_num)
  · exact rd hY (plus y0' ha t (le_refl _)) sz2 (by norm_num)

theorem weak_small {n m : ℝ} (h : Weak (NewLen3 x1 x3 y0 y1 y2) m (some n)) (hm : Near m n) (hn : |n| ≤ 1) : |parabola y0 y1 y2 n| ≤ 40 / 2 ^ 53 * Y := by
  have y0' : 0 ≤ Y := (abs_nonneg _).trans h0
  obtain ⟨m1, m2⟩ := near_close hm hn
  obtain ⟨tc, ta, hC, hA⟩ := table_near (x1 := x1) (x3 := x3) hY h0 h1 h2
  obtain ⟨D, hD, hr⟩ := h
  have dn := mulAdd_near hY hD m1 ta hA tc hC
  have hy : (NewLen3 x1 x3 y0 y1 y2).y1 = y1 := rfl
  rw [hy] at hr
  unfold quot at hr
  split at hr
  · cases hr
  rename_i hD0
  have hn' : n = fl (fl (-2 * y1) / D) := by cases hr; rfl
  have w : |fl (-2 * y1) - -2 * y1| ≤ 2.1 / 2 ^ 53 * Y := rd (e := 0) (B := 2) hY (by simp) (by rw [abs_mul]; norm_num; linarith) (by norm_num)
  have f := fl_tiny (fl (-2 * y1) / D)
  rw [← hn'] at f
  generalize fl (-2 * y1) = W at *
  have e : |n * D - W| ≤ 2.2 / 2 ^ 53 * Y := by
    have e1 : n * D - W = (n - W / D) * D := by field_simp
    rw [e1, abs_mul]
    have e2 := mul_le_mul_of_nonneg_right f (abs_nonneg D)
    have e3 : (|W / D| / 2 ^ 53 + 1 / 2 ^ 500) * |D| = |W| / 2 ^ 53 + 1 / 2 ^ 500 * |D| := by
      rw [abs_div]
      have := abs_pos.mpr hD0
      field_simp
    rw [e3] at e2
    have e4 : |W| ≤ 2.01 * Y := by
      have a := abs_sub_abs_le_abs_sub W (-2 * y1)
      rw [abs_mul, abs_neg, abs_two] at a
      norm_num at *
      linarith
    have e5 : |D| ≤ 6.1 * Y := by
      have a := abs_sub_abs_le_abs_sub D (y2 - y0 + m * (y2 - 2 * y1 + y0))
      have b := size y0' hA (sizeMul y0' m1 hC (le_refl _)) (le_refl _)
      norm_num at *
      linarith
    have e6 : (1 : ℝ) / 2 ^ 500 ≤ 1 / 2 ^ 100 := one_div_le_one_div_of_le (by positivity) (pow_le_pow_right₀ (by norm_num) (by norm_num))
    have e7 : (1 : ℝ) / 2 ^ 500 * |D| ≤ 1 / 2 ^ 100 * (6.1 * Y) := mul_le_mul e6 e5 (abs_nonneg _) (by positivity)
    clear e6 e1 e3 f
    generalize (1 : ℝ) / 2 ^ 500 * |D| = z at *
    norm_num at *
    linarith
  have key : 2 * parabola y0 y1 y2 n = (n * D - W) + (W - -2 * y1) - n * (D - (y2 - y0 + m * (y2 - 2 * y1 + y0))) + n * (y2 - 2 * y1 + y0) * (n - m) := by
    unfold parabola
    ring
  have b1 : |n * (D - (y2 - y0 + m * (y2 - 2 * y1 + y0)))| ≤ 26 / 2 ^ 53 * Y := sizeMul y0' hn dn (by norm_num)
  have b2 : |n * (y2 - 2 * y1 + y0) * (n - m)| ≤ 39.8 / 2 ^ 53 * Y := by
    rw [mul_comm]
    exact sizeMul y0' m2 (sizeMul y0' hn hC (le_refl _)) (by norm_num)
  have c1 := abs_le.mp b1
  have c2 := abs_le.mp b2
  have c3 := abs_le.mp e
  have c4 := abs_le.mp w
  rw [abs_le]
  generalize n * (D - (y2 - y0 + m * (y2 - 2 * y1 + y0))) = z1 at *
  generalize n * (y2 - 2 * y1 + y0) * (n - m) = z2 at *
  generalize parabola y0 y1 y2 n = z3 at *
  generalize n * D = z4 at *
  clear b1 b2 e w tc ta dn hr hn' f hY hm m1 m2 hD
  constructor <;> norm_num at * <;> linarith

theorem strong_small {n m : ℝ} (h : Strong (NewLen3 x1 x3 y0 y1 y2) m (some n)) (hm : Near m n) (hn : |n| ≤ 1) : |parabola y0 y1 y2 n| ≤ 140 / 2 ^ 53 * Y := by
  have y0' : 0 ≤ Y := (abs_nonneg _).trans h0
  obtain ⟨m1, m2⟩ := near_close hm hn
  obtain ⟨tc, ta, hC, hA⟩ := table_near (x1 := x1) (x3 := x3) hY h0 h1 h2
  obtain ⟨s, N, D, hs, hN, hD, hr⟩ := h
  have sn := mulAdd_near hY hs m1 ta hA tc hC
  have hy : (NewLen3 x1 x3 y0 y1 y2).y1 = y1 := rfl
  rw [hy] at hN
  generalize (NewLen3 x1 x3 y0 y1 y2).c = c at *
  generalize (NewLen3 x1 x3 y0 y1 y2).abSum = a at *
  have szs : |y2 - y0 + m * (y2 - 2 * y1 + y0)| ≤ 6.04 * Y := size y0' hA (sizeMul y0' m1 hC (le_refl _)) (by norm_num)
  have s2y : |2 * y1| ≤ 2 * Y := by rw [abs_mul, abs_two]; linarith
  have w : |fl (2 * y1) - 2 * y1| ≤ 2.1 / 2 ^ 53 * Y := rd (e := 0) (B := 2) hY (by simp) s2y (by norm_num)
  have w0 : |2 * y1 - 2 * y1| ≤ 2.1 / 2 ^ 53 * Y := by rw [sub_self, abs_zero]; positivity
  have t : |m * s - m * (y2 - y0 + m * (y2 - 2 * y1 + y0))| ≤ 26.3 / 2 ^ 53 * Y := times y0' m1 sn (by norm_num)
  have szt : |m * (y2 - y0 + m * (y2 - 2 * y1 + y0))| ≤ 6.2 * Y := sizeMul y0' m1 szs (by norm_num)
  have ft : |fl (m * s) - m * (y2 - y0 + m * (y2 - 2 * y1 + y0))| ≤ 32.6 / 2 ^ 53 * Y := rd hY t szt (by norm_num)
  have szT : |2 * y1 + m * (y2 - y0 + m * (y2 - 2 * y1 + y0))| ≤ 8.2 * Y := size y0' s2y szt (by norm_num)
  have Nn : |N - (2 * y1 + m * (y2 - y0 + m * (y2 - 2 * y1 + y0)))| ≤ 43.1 / 2 ^ 53 * Y := by
    rcases hN with rfl | rfl | rfl
    · exact rd hY (plus y0' w ft (le_refl _)) szT (by norm_num)
    · exact rd hY (plus y0' w0 ft (le_refl _)) szT (by norm_num)
    · exact rd hY (plus y0' w t (le_refl _)) szT (by norm_num)
  have Dn : |D| ≤ 10.2 * Y := by
    have hc : |c| ≤ 4.01 * Y := by
      have := abs_sub_abs_le_abs_sub c (y2 - 2 * y1 + y0)
      norm_num at *
      linarith
    have ha : |a| ≤ 2.01 * Y := by
      have := abs_sub_abs_le_abs_sub a (y2 - y0)
      norm_num at *
      linarith
    have g : ∀ {x B k : ℝ}, |x| ≤ B * Y → B + B / 2 ^ 53 + 1 / 2 ^ 53 ≤ k → |fl x| ≤ k * Y := by
      intro x B k hx hk
      have := rd (e := 0) (x := x) (X := x) (B := B) (k := B / 2 ^ 53 + 1 / 2 ^ 53) hY (by simp) hx (by
        have : (1 : ℝ) / 2 ^ 100 ≤ 1 / 2 ^ 53 := by norm_num
        linarith)
      have s := abs_sub_abs_le_abs_sub (fl x) x
      have z := mul_le_mul_of_nonneg_right hk y0'
      rw [add_assoc, add_mul] at z
      linarith
    have c2 : |fl (2 * c)| ≤ 8.03 * Y := g (B := 8.02) (by rw [abs_mul, abs_two]; linarith) (by norm_num)
    have p : |fl (2 * c) * m| ≤ 8.12 * Y := by
      rw [mul_comm]
      exact sizeMul y0' m1 c2 (by norm_num)
    rcases hD with rfl | rfl
    · exact g (B := 10.15) (size y0' ha (g (k := 8.13) p (by norm_num)) (by norm_num)) (by norm_num)
    · exact g (B := 10.15) (size y0' ha p (by norm_num)) (by norm_num)
  unfold quot at hr
  split at hr
  · cases hr
  rename_i hD0
  have hn' : n = fl (m - fl (N / D)) := by cases hr; rfl
  have f1 := fl_tiny (m - fl (N / D))
  have f2 := fl_tiny (N / D)
  rw [← hn'] at f1
  have he : (1 : ℝ) / 2 ^ 500 ≤ 1 / 2 ^ 100 := one_div_le_one_div_of_le (by positivity) (pow_le_pow_right₀ (by norm_num) (by norm_num))
  generalize (1 : ℝ) / 2 ^ 500 = ε at *
  have q : |N / D| ≤ 11.3 / 2 ^ 53 := by
    generalize fl (N / D) = g at *
    have q1 := abs_sub_abs_le_abs_sub (m - g) n
    rw [abs_sub_comm (m - g) n] at q1
    have q2 : |g| ≤ |n - m| + |n - (m - g)| := by
      rw [show g = (n - (m - g)) - (n - m) by ring]
      refine (abs_sub _ _).trans ?_
      rw [show n - (m - (n - (m - g) - (n - m))) = n - (m - g) by ring]
      linarith
    have q3 := abs_sub_abs_le_abs_sub (N / D) g
    rw [abs_sub_comm (N / D) g] at q3
    generalize |g - N / D| = z1 at *
    generalize |N / D| = z2 at *
    generalize |g| = z3 at *
    generalize |n - (m - g)| = z4 at *
    generalize |m - g| = z5 at *
    generalize |n - m| = z6 at *
    generalize |n| = z7 at *
    clear hY tc ta sn w w0 t ft Nn hm hr hn' hN hD hs
    norm_num at *
    linarith
  have Nb : |N| ≤ 115.3 / 2 ^ 53 * Y := by
    have : N = N / D * D := by field_simp
    rw [this]
    exact sizeMul y0' q Dn (by norm_num)
  have key : 2 * parabola y0 y1 y2 n = N - (N - (2 * y1 + m * (y2 - y0 + m * (y2 - 2 * y1 + y0)))) + (n - m) * (y2 - y0 + (n + m) * (y2 - 2 * y1 + y0)) := by
    unfold parabola
    ring
  have nm : |n + m| ≤ 2.01 := (abs_add_le _ _).trans (by norm_num at *; linarith)
  have b2 : |(n - m) * (y2 - y0 + (n + m) * (y2 - 2 * y1 + y0))| ≤ 100 / 2 ^ 53 * Y :=
    sizeMul y0' m2 (size y0' hA (sizeMul y0' nm hC (le_refl _)) (le_refl _)) (by norm_num)
  have c1 := abs_le.mp Nb
  have c2 := abs_le.mp b2
  have c3 := abs_le.mp Nn
  rw [abs_le]
  generalize (n - m) * (y2 - y0 + (n + m) * (y2 - 2 * y1 + y0)) = z2 at *
  generalize N - (2 * y1 + m * (y2 - y0 + m * (y2 - 2 * y1 + y0))) = z1 at *
  generalize parabola y0 y1 y2 n = z3 at *
  clear Nb b2 Nn tc ta sn w w0 t ft hr hn' hY hm m1 m2 hD hN hs f1 f2 he q Dn
  constructor <;> norm_num at * <;> linarith

/-- C208.  What `Zero` returns is, up to rounding of x, a place in the table where the parabola through the three values is zero up to 140 units of rounding. -/
theorem C208_zero {X x : ℝ} {strong : Bool} (hX : 1 / 2 ^ 400 ≤ X) (hx1 : |x1| ≤ X) (hx3 : |x3| ≤ X) (h : Zero (NewLen3 x1 x3 y0 y1 y2) strong x) :
    ∃ n, |n| ≤ 1 ∧ |parabola y0 y1 y2 n| ≤ 140 / 2 ^ 53 * Y ∧ |x - ((x1 + x3) / 2 + n * ((x3 - x1) / 2))| ≤ 8 / 2 ^ 53 * X := by
  obtain ⟨n, t, hi, hn, ht, rfl⟩ := h
  have hn1 : |n| ≤ 1 := by
    rw [not_or, not_lt, not_lt] at hn
    exact abs_le.mpr ⟨hn.2, hn.1⟩
  refine ⟨n, hn1, ?_, ?_⟩
  · obtain ⟨m, hs, hm⟩ := iter_last hi n rfl
    cases strong
    · refine (weak_small hY h0 h1 h2 hs hm hn1).trans ?_
      have y0' : 0 ≤ Y := (abs_nonneg _).trans h0
      exact mul_le_mul_of_nonneg_right (by norm_num) y0'
    · exact strong_small hY h0 h1 h2 hs hm hn1
  · exact place_near hX hx1 hx3 hn1 ht

end

theorem fl_scale {c : ℝ} (h : Rep c) (k : ℕ) : fl (2 ^ k * c) = 2 ^ k * c ∧ fl (-2 ^ k * c) = -2 ^ k * c := by
  obtain ⟨m, e, hc, hm, he⟩ := h
  constructor
  · refine fl_rep ⟨m, e + k, ?_, hm, by omega⟩
    rw [hc, zpow_add₀ (by norm_num), zpow_natCast]
    ring
  · refine fl_rep ⟨-m, e + k, ?_, by rwa [abs_neg], by omega⟩
    rw [hc, zpow_add₀ (by norm_num), zpow_natCast]
    push_cast
    ring

theorem fl_double (x : ℝ) : |fl x - x| ≤ |x| := by
  have := fl_best x (rep_int (n := 0) (by norm_num))
  simpa using this

theorem parabola_deriv (y0 y1 y2 n : ℝ) : deriv (parabola y0 y1 y2) n = (y2 - y0) / 2 + n * (y2 - 2 * y1 + y0) := by
  have e : parabola y0 y1 y2 = fun n => y1 + (y2 - y0) / 2 * n + (y2 - 2 * y1 + y0) / 2 * n ^ 2 := by
    funext n
    unfold parabola
    ring
  rw [e]
  have h : HasDerivAt (fun n : ℝ => y1 + (y2 - y0) / 2 * n + (y2 - 2 * y1 + y0) / 2 * n ^ 2) ((y2 - y0) / 2 * 1 + (y2 - 2 * y1 + y0) / 2 * (2 * n)) n := by
    have h1 := ((hasDerivAt_id n).const_mul ((y2 - y0) / 2)).const_add y1
    have h2 := ((hasDerivAt_pow 2 n)).const_mul ((y2 - 2 * y1 + y0) / 2)
    exact HasDerivAt.congr_deriv (h1.add h2) (by norm_num)
  rw [h.deriv]
  ring

/-- C208.  What `Extremum` returns is, up to rounding of x, a place in the table where the derivative of the parabola through the three values is zero, and its
value there, up to 16 units of rounding. -/
theorem C208_extremum {x1 x3 y0 y1 y2 X Y x y : ℝ} (hY : 1 / 2 ^ 100 ≤ Y) (h0 : |y0| ≤ Y) (h1 : |y1| ≤ Y) (h2 : |y2| ≤ Y)
    (hX : 1 / 2 ^ 400 ≤ X) (hx1 : |x1| ≤ X) (hx3 : |x3| ≤ X) (h : Extremum (NewLen3 x1 x3 y0 y1 y2) x y) :
    ∃ n, |n| ≤ 1 ∧ |deriv (parabola y0 y1 y2) n| ≤ 16 / 2 ^ 53 * Y ∧ |y - parabola y0 y1 y2 n| ≤ 16 / 2 ^ 53 * Y ∧
      |x - ((x1 + x3) / 2 + n * ((x3 - x1) / 2))| ≤ 8 / 2 ^ 53 * X := by
  obtain ⟨hc0, n, t, hn, hr, ht, rfl, hy⟩ := h
  have hn1 : |n| ≤ 1 := by
    rw [not_or, not_lt, not_lt] at hr
    exact abs_le.mpr hr
  have hY4 : (1 : ℝ) / 2 ^ 400 ≤ Y := le_trans (one_div_le_one_div_of_le (by positivity) (pow_le_pow_right₀ (by norm_num) (by norm_num))) hY
  have y0' : 0 ≤ Y := (abs_nonneg _).trans h0
  refine ⟨n, hn1, ?_⟩
  obtain ⟨tc, ta, hC, hA⟩ := table_near (x1 := x1) (x3 := x3) hY4 h0 h1 h2
  have pl := place_near hX hx1 hx3 hn1 ht
  refine (and_assoc.mp ⟨?_, pl⟩)
  have hyy : (NewLen3 x1 x3 y0 y1 y2).y1 = y1 := rfl
  have rc : Rep (NewLen3 x1 x3 y0 y1 y2).c := rep_fl _
  rw [hyy] at hy
  generalize (NewLen3 x1 x3 y0 y1 y2).c = c at *
  generalize (NewLen3 x1 x3 y0 y1 y2).abSum = a at *
  clear ht pl hX
  have s2 := (fl_scale rc 1).2
  have s8 := (fl_scale rc 3).1
  rw [pow_one] at s2
  rw [show (2 : ℝ) ^ 3 = 8 by norm_num] at s8
  rw [s2] at hn
  rw [s8] at hy
  have ec : c * (a / (-2 * c)) = -a / 2 := by field_simp
  have eV : a * a / (8 * c) = -(a * (a / (-2 * c)) / 4) := by
    field_simp
    ring
  have f := fl_tiny (a / (-2 * c))
  rw [← hn] at f
  have he : (1 : ℝ) / 2 ^ 500 ≤ 1 / 2 ^ 100 := one_div_le_one_div_of_le (by positivity) (pow_le_pow_right₀ (by norm_num) (by norm_num))
  have q1 : |a / (-2 * c)| ≤ 1.001 ∧ |n - a / (-2 * c)| ≤ 1.01 / 2 ^ 53 := by
    have s := abs_sub_abs_le_abs_sub (a / (-2 * c)) n
    rw [abs_sub_comm (a / (-2 * c)) n] at s
    generalize (1 : ℝ) / 2 ^ 500 = ε at *
    generalize |n - a / (-2 * c)| = z1 at *
    generalize |a / (-2 * c)| = z2 at *
    generalize |n| = z3 at *
    clear hY4 hY tc ta
    constructor <;> norm_num at * <;> linarith
  clear f
  have hac : |a| = 2 * |c| * |a / (-2 * c)| := by
    have : |c| * |a / (-2 * c)| = |a| / 2 := by rw [← abs_mul, ec, abs_div, abs_neg, abs_two]
    linarith
  have w1 := fl_double (a * a)
  have w2 := fl_tiny (a * a)
  have ca : |c| ≤ 4.01 * Y := by
    have := abs_sub_abs_le_abs_sub c (y2 - 2 * y1 + y0)
    clear hY4 hY he w2
    norm_num at *
    linarith
  have aa : |a| ≤ 2.01 * Y := by
    have := abs_sub_abs_le_abs_sub a (y2 - y0)
    clear hY4 hY he w2
    norm_num at *
    linarith
  have V1 : |a * a / (8 * c)| ≤ 0.504 * Y := by
    rw [eV, abs_neg, abs_div, abs_mul]
    have := mul_le_mul aa q1.1 (abs_nonneg _) (by positivity)
    rw [abs_of_pos (by norm_num : (0 : ℝ) < 4)]
    clear hY4 hY he w2
    norm_num at *
    linarith
  have cp := abs_pos.mpr hc0
  have V2 : |fl (a * a) / (8 * c) - a * a / (8 * c)| ≤ 0.6 / 2 ^ 53 * Y := by
    rw [← sub_div, abs_div, abs_mul 8 c, abs_of_pos (by norm_num : (0 : ℝ) < 8)]
    rcases le_or_gt (1 / 2 ^ 160) |c| with hc | hc
    · have d1 : |fl (a * a) - a * a| / (8 * |c|) ≤ |a * a / (8 * c)| / 2 ^ 53 + 1 / 2 ^ 500 / (8 * |c|) := by
        rw [abs_div (a * a), abs_mul 8 c, abs_of_pos (by norm_num : (0 : ℝ) < 8)]
        have := div_le_div_of_nonneg_right w2 (by positivity : 0 ≤ 8 * |c|)
        rwa [add_div, div_right_comm] at this
      have d2 : (1 : ℝ) / 2 ^ 500 / (8 * |c|) ≤ 1 / 2 ^ 60 * Y := by
        rw [div_le_iff₀ (by positivity)]
        have e1 : (1 : ℝ) / 2 ^ 500 ≤ 1 / 2 ^ 60 * (1 / 2 ^ 100) * (1 / 2 ^ 160) := by
          rw [div_mul_div_comm, div_mul_div_comm, ← pow_add, ← pow_add, one_mul, one_mul]
          exact one_div_le_one_div_of_le (by positivity) (pow_le_pow_right₀ (by norm_num) (by norm_num))
        refine e1.trans ?_
        exact mul_le_mul (mul_le_mul_of_nonneg_left hY (by positivity)) (by linarith) (by positivity) (by positivity)
      generalize (1 : ℝ) / 2 ^ 500 / (8 * |c|) = z at *
      refine d1.trans ?_
      clear d1 w2 he hY4 hY hc
      norm_num at *
      linarith
    · have d1 : |fl (a * a) - a * a| / (8 * |c|) ≤ |a * a| / (8 * |c|) := div_le_div_of_nonneg_right w1 (by positivity)
      have d2 : |a * a| / (8 * |c|) = |c| * (|a / (-2 * c)| * |a / (-2 * c)|) / 2 := by
        have g : ∀ A C Q : ℝ, 0 < C → A = 2 * C * Q → A * A / (8 * C) = C * (Q * Q) / 2 := by
          intro A C Q h e
          rw [e]
          field_simp
          ring
        rw [abs_mul]
        exact g _ _ _ cp hac
      have d3 : |a / (-2 * c)| * |a / (-2 * c)| ≤ 1.01 := (mul_le_mul q1.1 q1.1 (abs_nonneg _) (by norm_num)).trans (by norm_num)
      have d4 := mul_le_mul hc.le d3 (by positivity) (by positivity)
      rw [d2] at d1
      refine d1.trans ?_
      generalize |c| * (|a / (-2 * c)| * |a / (-2 * c)|) = z at *
      clear d1 d2 d3 w1 w2 he hY4
      norm_num at *
      linarith
  have fv := rd (k := 1.2 / 2 ^ 53) hY4 V2 V1 (by norm_num)
  have fy : |y - (y1 - a * a / (8 * c))| ≤ 2.8 / 2 ^ 53 * Y := by
    rw [hy]
    refine rd (e := 1.2 / 2 ^ 53) (B := 1.504) hY4 ?_ ?_ (by norm_num)
    · rw [show y1 - fl (fl (a * a) / (8 * c)) - (y1 - a * a / (8 * c)) = -(fl (fl (a * a) / (8 * c)) - a * a / (8 * c)) by ring, abs_neg]
      exact fv
    · refine (abs_sub _ _).trans ?_
      linarith
  rw [eV] at fy
  rw [parabola_deriv]
  clear eV V1 V2 fv w1 w2 hy hn hac cp s2 s8 he
  generalize a / (-2 * c) = q at *
  have k1 : |c * (n - q)| ≤ 4.06 / 2 ^ 53 * Y := by
    rw [mul_comm]
    exact sizeMul y0' q1.2 ca (by norm_num)
  have k2 : |n * (c - (y2 - 2 * y1 + y0))| ≤ 8.4 / 2 ^ 53 * Y := sizeMul y0' hn1 tc (by norm_num)
  have sl : |(y2 - y0) / 2 + n * (y2 - 2 * y1 + y0)| ≤ 16 / 2 ^ 53 * Y := by
    have e : (y2 - y0) / 2 + n * (y2 - 2 * y1 + y0) = -(a - (y2 - y0)) / 2 - n * (c - (y2 - 2 * y1 + y0)) + c * (n - q) := by
      linear_combination ec
    rw [e]
    have c1 := abs_le.mp k1
    have c2 := abs_le.mp k2
    have c3 := abs_le.mp ta
    rw [abs_le]
    generalize c * (n - q) = z1 at *
    generalize n * (c - (y2 - 2 * y1 + y0)) = z2 at *
    clear k1 k2 ta tc hY hY4
    constructor <;> norm_num at * <;> linarith
  refine ⟨sl, ?_⟩
  have k3 : |n * ((y2 - y0) / 2 + n * (y2 - 2 * y1 + y0))| ≤ 16 / 2 ^ 53 * Y := sizeMul y0' hn1 sl (by norm_num)
  have k4 : |n * (a - (y2 - y0))| ≤ 6.4 / 2 ^ 53 * Y := sizeMul y0' hn1 ta (by norm_num)
  have k5 : |(n - q) * a| ≤ 2.1 / 2 ^ 53 * Y := sizeMul y0' q1.2 aa (by norm_num)
  have e : y - parabola y0 y1 y2 n = (y - (y1 - -(a * q / 4))) - n * ((y2 - y0) / 2 + n * (y2 - 2 * y1 + y0)) / 2 + n * (a - (y2 - y0)) / 4 - (n - q) * a / 4 := by
    unfold parabola
    ring
  rw [e]
  have c1 := abs_le.mp fy
  have c2 := abs_le.mp k3
  have c3 := abs_le.mp k4
  have c4 := abs_le.mp k5
  rw [abs_le]
  generalize y - (y1 - -(a * q / 4)) = z1 at *
  generalize n * ((y2 - y0) / 2 + n * (y2 - 2 * y1 + y0)) = z2 at *
  generalize n * (a - (y2 - y0)) = z3 at *
  generalize (n - q) * a = z4 at *
  clear k1 k2 k3 k4 k5 ta tc hY hY4 fy sl
  constructor <;> norm_num at * <;> linarith

theorem fl_half (n : ℤ) (hn : |n| ≤ 2 ^ 53) {x : ℝ} (h : x = n * (1 / 2)) : fl x = x := by
  refine fl_rep ⟨n, -1, ?_, hn, by norm_num⟩
  rw [h]
  norm_num

/-- A table for which both strategies succeed: −1, 1, 3 from x = 0 to x = 2. -/
theorem C208_example (strong : Bool) : Zero (NewLen3 0 2 (-1) 1 3) strong 0.5 := by
  have f2 : fl (2 : ℝ) = 2 := fl_half 4 (by norm_num) (by norm_num)
  have f4 : fl (4 : ℝ) = 4 := fl_half 8 (by norm_num) (by norm_num)
  have g2 : fl (-2 : ℝ) = -2 := fl_half (-4) (by norm_num) (by norm_num)
  have g1 : fl (-1 : ℝ) = -1 := fl_half (-2) (by norm_num) (by norm_num)
  have f1 : fl (1 : ℝ) = 1 := fl_half 2 (by norm_num) (by norm_num)
  have fh : fl (-(1 / 2) : ℝ) = -(1 / 2) := fl_half (-1) (by norm_num) (by norm_num)
  have fh' : fl ((1 / 2) : ℝ) = (1 / 2) := fl_half 1 (by norm_num) (by norm_num)
  have z := fl_zero
  have hd : NewLen3 0 2 (-1) 1 3 = ⟨1, 0, 4, 2, 2⟩ := by
    unfold NewLen3
    norm_num [f2, f4, z]
  rw [hd]
  have n0 : ¬ Near 0 (-(1 / 2)) := fun h => h.1 rfl
  have n1 : Near (-(1 / 2)) (-(1 / 2)) := by
    refine ⟨by norm_num, ?_⟩
    rw [sub_self, z, zero_div, z, abs_zero]
    have := fl_tiny (1e-15 : ℝ)
    have he : (1 : ℝ) / 2 ^ 500 ≤ 1 / 2 ^ 100 := one_div_le_one_div_of_le (by positivity) (pow_le_pow_right₀ (by norm_num) (by norm_num))
    generalize (1 : ℝ) / 2 ^ 500 = ε at *
    have := (abs_le.mp this).1
    rw [abs_of_pos (by norm_num : (0 : ℝ) < 1e-15)] at this
    norm_num at *
    linarith
  have step : ∀ m : ℝ, m = 0 ∨ m = -(1 / 2) → (if strong then Strong ⟨1, 0, 4, 2, 2⟩ else Weak ⟨1, 0, 4, 2, 2⟩) m (some (-(1 / 2))) := by
    rintro m (rfl | rfl)
    · cases strong
      · exact ⟨4, Or.inl (by norm_num [z, f4]), by norm_num [quot, g2, fh]⟩
      · exact ⟨4, 2, 4, Or.inl (by norm_num [z, f4]), Or.inl (by norm_num [z, f2]), Or.inl (by norm_num [z, f4]), by norm_num [quot, fh, fh']⟩
    · cases strong
      · exact ⟨4, Or.inl (by norm_num [z, f4]), by norm_num [quot, g2, fh]⟩
      · exact ⟨4, 0, 4, Or.inl (by norm_num [z, f4]), Or.inl (by norm_num [z, f2, g2]), Or.inl (by norm_num [z, f4]), by norm_num [quot, fh, z]⟩
  exact ⟨-(1 / 2), 1, .next (step _ (Or.inl rfl)) n0 (.done (step _ (Or.inr rfl)) n1), by norm_num, Or.inl (by norm_num [g1, f1]), by norm_num [fh']⟩

/-- A table with an extremum: 1, 0, 1. -/
theorem C208_extremum_example : Extremum (NewLen3 0 2 1 0 1) 1 0 := by
  have f2 : fl (2 : ℝ) = 2 := fl_half 4 (by norm_num) (by norm_num)
  have g4 : fl (-4 : ℝ) = -4 := fl_half (-8) (by norm_num) (by norm_num)
  have g1 : fl (-1 : ℝ) = -1 := fl_half (-2) (by norm_num) (by norm_num)
  have f1 : fl (1 : ℝ) = 1 := fl_half 2 (by norm_num) (by norm_num)
  have z := fl_zero
  have hd : NewLen3 0 2 1 0 1 = ⟨0, 2, 0, 2, 2⟩ := by
    unfold NewLen3
    norm_num [f1, f2, g1, z]
  rw [hd]
  exact ⟨by norm_num, 0, 2, by norm_num [z], by norm_num, Or.inl (by norm_num [z, f2]), by norm_num [f1], by norm_num [z]⟩

end Verif.Props.Zero64v
