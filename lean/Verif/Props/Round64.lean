import Verif.Model.Round64
import Verif.Props.Julian64
import Verif.Model.MoonPos
import Verif.Model.Rise
import Mathlib.Analysis.Real.Pi.Bounds
import Verif.Lemmas.Interp
/-
C167, C168, C169: polynomials, binary search and interpolation in float64.
-/
namespace Verif.Props

open Verif.Go Verif.Go.F64 Verif.Model Verif.Spec Verif.Lemmas

/-- The unit of rounding. -/
noncomputable def uu : ℝ := 2 ^ (-53 : ℤ)
/-- Half the least positive float64. -/
noncomputable def ηη : ℝ := 2 ^ (-1075 : ℤ)

theorem uu_pos : 0 < uu := two_zpow_pos _
theorem ηη_pos : 0 < ηη := two_zpow_pos _

/-- The error of one rounding. -/
theorem fl_err (x : ℝ) : |fl x - x| ≤ uu * |x| + ηη := by
  have hη := ηη_pos
  by_cases h : 2 ^ (-1022 : ℤ) ≤ |x|
  · have := fl_rel h
    unfold uu
    linarith
  · push Not at h
    have := fl_near_lt (x := x) (n := -1021) (h.trans (zpow_lt_zpow_right₀ (by norm_num) (by norm_num))) (by norm_num)
    rw [show (-1021 : ℤ) - 54 = -1075 by norm_num] at this
    have h2 := mul_nonneg uu_pos.le (abs_nonneg x)
    unfold ηη
    linarith

theorem fl_abs (x : ℝ) : |fl x| ≤ (1 + uu) * |x| + ηη := by
  have h := fl_err x
  have := abs_sub_abs_le_abs_sub (fl x) x
  linarith

/-- Σ |cᵢ| |x|ⁱ. -/
noncomputable def sizes (x : ℝ) (c : List ℝ) : ℝ := hornerR |x| (c.map abs)

theorem sizes_cons (x a : ℝ) (l : List ℝ) : sizes x (a :: l) = sizes x l * |x| + |a| := rfl
theorem horner_cons (x a : ℝ) (l : List ℝ) : hornerR x (a :: l) = hornerR x l * x + a := rfl

theorem sizes_nonneg (x : ℝ) (c : List ℝ) : 0 ≤ sizes x c := by
  induction c with
  | nil => exact le_rfl
  | cons a l ih => rw [sizes_cons]; positivity

theorem horner_le_sizes (x : ℝ) (c : List ℝ) : |hornerR x c| ≤ sizes x c := by
  induction c with
  | nil => simp [hornerR, sizes]
  | cons a l ih =>
    rw [sizes_cons, horner_cons]
    refine (abs_add_le _ _).trans ?_
    rw [abs_mul]
    have := mul_le_mul_of_nonneg_right ih (abs_nonneg x)
    linarith

/-- Contributions of underflow. -/
noncomputable def tiny (x : ℝ) : ℕ → ℝ
  | 0 => 0
  | n + 1 => (1 + uu) ^ 2 * |x| * tiny x n + 4 * ηη

theorem tiny_nonneg (x : ℝ) (n : ℕ) : 0 ≤ tiny x n := by
  induction n with
  | zero => exact le_rfl
  | succ n ih =>
    unfold tiny
    have := ηη_pos
    have := uu_pos
    positivity

theorem horner_step_bound (fma : Bool) (x c r e B ρ σ : ℝ) (hB : 0 ≤ B) (hρ : 1 ≤ ρ) (hσ : 0 ≤ σ) (he : |e| ≤ B) (hr : |r - e| ≤ (ρ - 1) * B + σ) :
    |Round64.step fma x r c - (e * x + c)| ≤ ((1 + uu) ^ 2 * ρ - 1) * (B * |x| + |c|) + ((1 + uu) ^ 2 * |x| * σ + 4 * ηη) := by
  have hu := uu_pos
  have hη := ηη_pos
  have hu1 : uu ≤ 1 / 4 := by unfold uu; norm_num
  have hrb : |r| ≤ ρ * B + σ := by
    have := abs_sub_abs_le_abs_sub r e
    linarith
  have hc := fl_err c
  have hca := fl_abs c
  have hx := abs_nonneg x
  have hcn := abs_nonneg c
  have hd : |(r - e) * x| ≤ ((ρ - 1) * B + σ) * |x| := by
    rw [abs_mul]; exact mul_le_mul_of_nonneg_right hr hx
  have hrx : |r * x| ≤ (ρ * B + σ) * |x| := by
    rw [abs_mul]; exact mul_le_mul_of_nonneg_right hrb hx
  have hq : ((1 + uu) ^ 2 - 1) * |c| ≤ ((1 + uu) ^ 2 * ρ - 1) * |c| := by
    refine mul_le_mul_of_nonneg_right ?_ hcn
    nlinarith
  have hS : 0 ≤ (ρ * B + σ) * |x| := by positivity
  have hw : ((ρ - 1) * B + σ) * |x| = (ρ * B + σ) * |x| - B * |x| := by ring
  have ht : ((1 + uu) ^ 2 * ρ - 1) * (B * |x| + |c|) + ((1 + uu) ^ 2 * |x| * σ + 4 * ηη) =
    (1 + uu) ^ 2 * ((ρ * B + σ) * |x|) - B * |x| + ((1 + uu) ^ 2 * ρ - 1) * |c| + 4 * ηη := by ring
  rw [hw] at hd
  rw [ht]
  unfold Round64.step
  generalize fl c = c' at *
  generalize (ρ * B + σ) * |x| = S at *
  have huη := mul_le_mul_of_nonneg_right hu1 hη.le
  cases fma with
  | true =>
    simp only [if_true]
    have h1 := fl_err (r * x + c')
    have h2 : |r * x + c'| ≤ S + ((1 + uu) * |c| + ηη) := (abs_add_le _ _).trans (add_le_add hrx hca)
    have h3 : |fl (r * x + c') - (e * x + c)| ≤ |fl (r * x + c') - (r * x + c')| + |(r - e) * x| + |c' - c| := by
      rw [show fl (r * x + c') - (e * x + c) = (fl (r * x + c') - (r * x + c')) + (r - e) * x + (c' - c) by ring]
      exact (abs_add_le _ _).trans (add_le_add (abs_add_le _ _) le_rfl)
    have h4 := mul_le_mul_of_nonneg_left h2 hu.le
    have h5 := mul_nonneg hu.le hS
    have h6 := mul_nonneg hu.le h5
    linarith
  | false =>
    simp only [Bool.false_eq_true, if_false]
    have p1 := fl_err (r * x)
    have p2 := fl_abs (r * x)
    have p3 := mul_le_mul_of_nonneg_left hrx hu.le
    generalize fl (r * x) = p at *
    have h1 := fl_err (p + c')
    have h2 : |p + c'| ≤ ((1 + uu) * |r * x| + ηη) + ((1 + uu) * |c| + ηη) := (abs_add_le _ _).trans (add_le_add p2 hca)
    have h3 : |fl (p + c') - (e * x + c)| ≤ |fl (p + c') - (p + c')| + |p - r * x| + |(r - e) * x| + |c' - c| := by
      rw [show fl (p + c') - (e * x + c) = (fl (p + c') - (p + c')) + (p - r * x) + (r - e) * x + (c' - c) by ring]
      exact (abs_add_le _ _).trans (add_le_add ((abs_add_le _ _).trans (add_le_add (abs_add_le _ _) le_rfl)) le_rfl)
    have h4 := mul_le_mul_of_nonneg_left h2 hu.le
    have h5 := mul_nonneg hu.le hS
    have h6 := mul_le_mul_of_nonneg_left p3 hu.le
    linarith

/-- **C167.**  Horner's scheme in float64, with the coefficients rounded and with or without rounding of the products: for n coefficients the error is at
most (1 + 2⁻⁵³)²ⁿ − 1 of the sum of the absolute values of the terms, and an amount of the order of the least float64. -/
theorem C167_horner (fma : Bool) (x : ℝ) (c : List ℝ) :
    |Round64.horner fma x c - hornerR x c| ≤ ((1 + uu) ^ (2 * c.length) - 1) * sizes x c + tiny x c.length := by
  have hu := uu_pos
  have hη := ηη_pos
  induction c with
  | nil => simp [Round64.horner, hornerR, tiny]
  | cons a l ih =>
    have hs := sizes_nonneg x l
    have ht := tiny_nonneg x l.length
    have hp : (1 : ℝ) ≤ (1 + uu) ^ (2 * l.length) := one_le_pow₀ (by linarith)
    cases l with
    | nil =>
      have h := fl_err a
      have e1 : hornerR x [a] = a := by simp [hornerR]
      have e2 : sizes x [a] = |a| := by simp [sizes, hornerR]
      have e3 : tiny x 1 = 4 * ηη := by simp [tiny]
      rw [e1, e2]
      simp only [Round64.horner, List.length_cons, List.length_nil, zero_add, mul_one, e3]
      have h1 := mul_nonneg hu.le (abs_nonneg a)
      have h2 := mul_nonneg hu.le h1
      linarith
    | cons b l =>
      have := horner_step_bound fma x a _ _ _ _ _ hs hp ht (horner_le_sizes x (b :: l)) ih
      rw [horner_cons, sizes_cons]
      have e : Round64.horner fma x (a :: b :: l) = Round64.step fma x (Round64.horner fma x (b :: l)) a := rfl
      rw [e]
      refine this.trans (le_of_eq ?_)
      have e4 : tiny x (a :: b :: l).length = (1 + uu) ^ 2 * |x| * tiny x (b :: l).length + 4 * ηη := rfl
      rw [e4]
      congr 3
      rw [List.length_cons (as := b :: l), ← pow_add]
      congr 1; ring

/-- **C167.**  Between the Julian days 2²⁰ and 2²² (−1841 to 6771) the century has one rounding error. -/
theorem C167_century (jde : ℝ) (hR : Rep jde) (h0 : 2 ^ 20 ≤ jde) (h1 : jde ≤ 2 ^ 22) :
    Round64.J2000Century jde = fl (Model.J2000Century jde) ∧ |Round64.J2000Century jde - Model.J2000Century jde| ≤ uu * |Model.J2000Century jde| + ηη := by
  have e : Round64.J2000Century jde = fl (Model.J2000Century jde) := by
    unfold Round64.J2000Century Model.J2000Century
    norm_num at h0 h1
    obtain ⟨j, hj⟩ := rep_mult hR (n := 20) (by rw [abs_of_nonneg (by linarith)]; norm_num; exact h0)
    rw [show (20 : ℤ) - 52 = -32 by norm_num] at hj
    rw [fl_rep (x := jde - 2451545) (rep_of (k := -32) (j - 2451545 * 2 ^ 32) (by norm_num) (by rw [hj]; push_cast; norm_num; ring) (by
      rw [abs_le]; norm_num; constructor <;> linarith))]
  exact ⟨e, by rw [e]; exact fl_err _⟩

/-- A bound of the slope of a polynomial. -/
noncomputable def slope (R : ℝ) : List ℝ → ℝ
  | [] => 0
  | _ :: l => slope R l * R + hornerR R (l.map abs)

theorem horner_slope (x y R : ℝ) (hx : |x| ≤ R) (hy : |y| ≤ R) (c : List ℝ) : |hornerR x c - hornerR y c| ≤ slope R c * |x - y| := by
  have hR : 0 ≤ R := (abs_nonneg x).trans hx
  induction c with
  | nil => simp [hornerR, slope]
  | cons a l ih =>
    have hs : |hornerR y l| ≤ hornerR R (l.map abs) := by
      clear ih
      induction l with
      | nil => simp [hornerR]
      | cons b l ih2 =>
        rw [horner_cons, List.map_cons, horner_cons]
        refine (abs_add_le _ _).trans (add_le_add ?_ le_rfl)
        rw [abs_mul]
        exact mul_le_mul ih2 hy (abs_nonneg _) ((abs_nonneg _).trans ih2)
    rw [horner_cons, horner_cons]
    rw [show hornerR x l * x + a - (hornerR y l * y + a) = (hornerR x l - hornerR y l) * x + hornerR y l * (x - y) by ring]
    refine (abs_add_le _ _).trans ?_
    rw [abs_mul, abs_mul]
    have h1 : |hornerR x l - hornerR y l| * |x| ≤ (slope R l * |x - y|) * R := mul_le_mul ih hx (abs_nonneg _) ((abs_nonneg _).trans ih)
    have h2 := mul_le_mul_of_nonneg_right hs (abs_nonneg (x - y))
    have e : slope R (a :: l) = slope R l * R + hornerR R (l.map abs) := rfl
    rw [e]
    linarith

theorem horner_abs_mono (x R : ℝ) (hx : |x| ≤ R) (c : List ℝ) : sizes x c ≤ hornerR R (c.map abs) := by
  have hR : 0 ≤ R := (abs_nonneg x).trans hx
  induction c with
  | nil => simp [hornerR, sizes]
  | cons b l ih =>
    rw [sizes_cons, List.map_cons, horner_cons]
    exact add_le_add (mul_le_mul ih hx (abs_nonneg _) ((sizes_nonneg x l).trans ih)) le_rfl

theorem uu_small : uu ≤ 1.2e-16 := by unfold uu; norm_num

theorem ηη_small : ηη ≤ 1e-30 := by
  unfold ηη
  refine (zpow_le_zpow_right₀ (by norm_num : (1 : ℝ) ≤ 2) (show (-1075 : ℤ) ≤ -100 by norm_num)).trans ?_
  norm_num

theorem tiny_le (x : ℝ) (hx : |x| ≤ 48) (n : ℕ) : tiny x n ≤ 4 * ηη * 50 ^ n := by
  have hη := ηη_pos
  induction n with
  | zero => unfold tiny; positivity
  | succ n ih =>
    unfold tiny
    have h1 : (1 + uu) ^ 2 * |x| ≤ 49 := by
      have : (1 + uu) ^ 2 ≤ 1.01 := by unfold uu; norm_num
      calc _ ≤ 1.01 * 48 := mul_le_mul this hx (abs_nonneg _) (by norm_num)
        _ ≤ 49 := by norm_num
    have h2 : (1 + uu) ^ 2 * |x| * tiny x n ≤ 49 * (4 * ηη * 50 ^ n) := mul_le_mul h1 ih (tiny_nonneg x n) (by norm_num)
    have h3 : (1 : ℝ) ≤ 50 ^ n := one_le_pow₀ (by norm_num)
    have h4 := mul_le_mul_of_nonneg_left h3 (show 0 ≤ 4 * ηη by positivity)
    have h5 : (50 : ℝ) ^ (n + 1) = 50 ^ n * 50 := pow_succ _ _
    rw [h5]
    linarith

theorem elong_num (c : ℝ) (h0 : 0 < c) (h1 : c < 0.01746) :
    hornerR 48 ([297.8501921 * c, 445267.1114034 * c, -0.0018819 * c, c / 545868, -c / 113065000].map abs) ≤ 373500 ∧
    slope 48 [297.8501921 * c, 445267.1114034 * c, -0.0018819 * c, c / 545868, -c / 113065000] ≤ 7780 := by
  have a1 := abs_of_pos (show 0 < 297.8501921 * c by linarith)
  have a2 := abs_of_pos (show 0 < 445267.1114034 * c by linarith)
  have a3 := abs_of_neg (show -0.0018819 * c < 0 by linarith)
  have a4 := abs_of_pos (show 0 < c / 545868 by positivity)
  have a5 := abs_of_neg (show -c / 113065000 < 0 by rw [neg_div]; exact neg_neg_of_pos (by positivity))
  simp only [slope, hornerR, List.map, List.foldr, a1, a2, a3, a4, a5]
  constructor <;> linarith

/-- **C167.**  The mean elongation of the Moon computed in float64 from an ephemeris day between 2²⁰ and 2²² is right to 10⁻⁹ radian, 0.0002 arc
second. -/
theorem C167_elongation (fma : Bool) (jde : ℝ) (hR : Rep jde) (h0 : 2 ^ 20 ≤ jde) (h1 : jde ≤ 2 ^ 22) :
    |Round64.argD fma jde - Moonposition.argD (Model.J2000Century jde)| ≤ 1e-9 := by
  have hT : |Model.J2000Century jde| ≤ 47.8 := by
    unfold Model.J2000Century
    norm_num at h0 h1
    rw [abs_le]
    constructor
    · rw [le_div_iff₀ (by norm_num)]; linarith
    · rw [div_le_iff₀ (by norm_num)]; linarith
  have hT2 := (C167_century jde hR h0 h1).2
  have hu := uu_pos
  have hη := ηη_pos
  have hu' := uu_small
  have hη' := ηη_small
  unfold Round64.argD Moonposition.argD
  generalize Round64.J2000Century jde = t at *
  generalize Model.J2000Century jde = T at *
  have hd : |t - T| ≤ 6e-15 := by
    refine hT2.trans ?_
    have := mul_le_mul hu' hT (abs_nonneg _) (by norm_num)
    norm_num at this hη' ⊢
    linarith
  have ht : |t| ≤ 48 := by
    have := abs_sub_abs_le_abs_sub t T
    norm_num at hd hT
    linarith
  have hc0 : 0 < deg := by unfold deg; positivity
  have hc1 : deg < 0.01746 := by
    unfold deg
    have := Real.pi_lt_d4
    norm_num at this ⊢
    linarith
  obtain ⟨n1, n2⟩ := elong_num deg hc0 hc1
  have hh := C167_horner fma t [297.8501921 * deg, 445267.1114034 * deg, -0.0018819 * deg, deg / 545868, -deg / 113065000]
  have hlen : [297.8501921 * deg, 445267.1114034 * deg, -0.0018819 * deg, deg / 545868, -deg / 113065000].length = 5 := rfl
  rw [hlen] at hh
  have hm := horner_abs_mono t 48 ht [297.8501921 * deg, 445267.1114034 * deg, -0.0018819 * deg, deg / 545868, -deg / 113065000]
  have hs := horner_slope t T 48 ht (hT.trans (by norm_num)) [297.8501921 * deg, 445267.1114034 * deg, -0.0018819 * deg, deg / 545868, -deg / 113065000]
  generalize [297.8501921 * deg, 445267.1114034 * deg, -0.0018819 * deg, deg / 545868, -deg / 113065000] = l at *
  have ht5 := tiny_le t ht 5
  have k1 : (1 + uu) ^ (2 * 5) - 1 ≤ 1.12e-15 := by unfold uu; norm_num
  have k2 : ((1 + uu) ^ (2 * 5) - 1) * sizes t l ≤ 1.12e-15 * 373500 := mul_le_mul k1 (hm.trans n1) (sizes_nonneg t l) (by norm_num)
  have k3 : slope 48 l * |t - T| ≤ 7780 * 6e-15 := mul_le_mul n2 hd (abs_nonneg _) (by norm_num)
  have k4 : |Round64.horner fma t l - hornerR T l| ≤ |Round64.horner fma t l - hornerR t l| + |hornerR t l - hornerR T l| := abs_sub_le _ _ _
  generalize ((1 + uu) ^ (2 * 5) - 1) * sizes t l = S at hh k2
  generalize slope 48 l * |t - T| = S' at hs k3
  norm_num at ht5 k2 k3 hη' ⊢
  linarith

/-- J2000 and an instant of 1992 meet the hypotheses. -/
example : Rep (2448724.5 : ℝ) ∧ (2 : ℝ) ^ 20 ≤ 2448724.5 ∧ (2448724.5 : ℝ) ≤ 2 ^ 22 :=
  ⟨rep_of (k := -1) 4897449 (by norm_num) (by push_cast; norm_num) (by rw [abs_of_pos] <;> norm_num), by norm_num, by norm_num⟩

/-! Binary search -/

theorem rep_two {a : ℝ} (h : Rep a) : Rep (2 * a) := by
  obtain ⟨m, k, e, hm, hk⟩ := h
  exact ⟨m, k + 1, by rw [e, zpow_add₀ (by norm_num)]; norm_num; ring, hm, by omega⟩

/-- The middle of two float64 is between them and near the true middle. -/
theorem mid_spec {a b M : ℝ} (ha : Rep a) (hb : Rep b) (hM : |a| ≤ M) (hM' : |b| ≤ M) :
    fl (fl (a + b) / 2) ∈ Set.uIcc a b ∧ |fl (fl (a + b) / 2) - (a + b) / 2| ≤ 2.1 * uu * M + 2 * ηη := by
  have hu := uu_pos
  have hη := ηη_pos
  have hM0 : 0 ≤ M := (abs_nonneg a).trans hM
  constructor
  · rw [Set.mem_uIcc]
    have key : ∀ {a b : ℝ}, Rep a → Rep b → a ≤ b → a ≤ fl (fl (a + b) / 2) ∧ fl (fl (a + b) / 2) ≤ b := by
      intro a b ha hb hab
      have h1 := le_fl (rep_two ha) (show 2 * a ≤ a + b by linarith)
      have h2 := fl_le (rep_two hb) (show a + b ≤ 2 * b by linarith)
      exact ⟨le_fl ha (by linarith), fl_le hb (by linarith)⟩
    rcases le_total a b with h | h
    · exact Or.inl (key ha hb h)
    · rw [add_comm a b]; exact Or.inr (key hb ha h)
  · have h1 := fl_err (a + b)
    have h2 : |a + b| ≤ 2 * M := (abs_add_le _ _).trans (by linarith)
    have h2' := mul_le_mul_of_nonneg_left h2 hu.le
    have h3 := fl_abs (a + b)
    have h4 := fl_err (fl (a + b) / 2)
    have e1 : |fl (a + b) / 2| = |fl (a + b)| / 2 := by rw [abs_div]; norm_num
    have e2 : |fl (a + b) / 2 - (a + b) / 2| = |fl (a + b) - (a + b)| / 2 := by rw [← sub_div, abs_div]; norm_num
    rw [e1] at h4
    have h5 := mul_le_mul_of_nonneg_left h3 hu.le
    have h6 := abs_sub_le (fl (fl (a + b) / 2)) (fl (a + b) / 2) ((a + b) / 2)
    rw [e2] at h6
    have hu1 : uu ≤ 0.01 := uu_small.trans (by norm_num)
    have h7 : uu * (uu * |a + b|) ≤ 0.01 * (uu * (2 * M)) := mul_le_mul hu1 h2' (by positivity) (by norm_num)
    have h8 := mul_le_mul_of_nonneg_right hu1 hη.le
    have h9 : uu * (1 + uu) * |a + b| = uu * |a + b| + uu * (uu * |a + b|) := by ring
    have h10 : 0 ≤ uu * M := by positivity
    norm_num only at h7 h8 ⊢
    linarith

/-- **C168.**  Binary search in float64.  Whatever the function is, the answer is a zero, or one end of an interval, within the given bounds, at whose ends
the function has different signs; the interval is 2⁻⁵² of the first one and a few units in the last place long. -/
theorem C168_binaryRoot (f : ℝ → ℝ) (lower upper M : ℝ) (hl : Rep lower) (hu : Rep upper) (hM : |lower| ≤ M) (hM' : |upper| ≤ M)
    (hs : Iterate.signbit (f lower) ≠ Iterate.signbit (f upper)) :
    let r := Round64.BinaryRoot f lower upper
    f r = 0 ∨ ∃ a b, a ∈ Set.uIcc lower upper ∧ b ∈ Set.uIcc lower upper ∧ Rep a ∧ Rep b ∧ (r = a ∨ r = b) ∧
      Iterate.signbit (f a) ≠ Iterate.signbit (f b) ∧ |a - b| ≤ |upper - lower| / 2 ^ 52 + 4.2 * uu * M + 4 * ηη := by
  have main : ∀ (fuel : ℕ) (mid lo up : ℝ), Rep lo → Rep up → |lo| ≤ M → |up| ≤ M → lo ∈ Set.uIcc lower upper → up ∈ Set.uIcc lower upper →
      Iterate.signbit (f lo) ≠ Iterate.signbit (f up) → (mid = lo ∨ mid = up ∨ 0 < fuel) →
      f (Round64.binaryLoop f fuel mid lo up (f lo)) = 0 ∨ ∃ a b, a ∈ Set.uIcc lower upper ∧ b ∈ Set.uIcc lower upper ∧ Rep a ∧ Rep b ∧
        (Round64.binaryLoop f fuel mid lo up (f lo) = a ∨ Round64.binaryLoop f fuel mid lo up (f lo) = b) ∧
        Iterate.signbit (f a) ≠ Iterate.signbit (f b) ∧ |a - b| ≤ |up - lo| / 2 ^ fuel + (4.2 * uu * M + 4 * ηη) * (1 - 1 / 2 ^ fuel) := by
    intro fuel
    induction fuel with
    | zero =>
      intro mid lo up r1 r2 _ _ i1 i2 hsg hm
      right
      refine ⟨lo, up, i1, i2, r1, r2, ?_, hsg, ?_⟩
      · rcases hm with h | h | h
        · exact Or.inl h
        · exact Or.inr h
        · exact absurd h (lt_irrefl _)
      · rw [abs_sub_comm]; norm_num
    | succ n ih =>
      intro mid lo up r1 r2 b1 b2 i1 i2 hsg _
      obtain ⟨m1, m2⟩ := mid_spec r1 r2 b1 b2
      have rm := rep_fl (fl (lo + up) / 2)
      unfold Round64.binaryLoop
      generalize fl (fl (lo + up) / 2) = m at *
      simp only
      have im : m ∈ Set.uIcc lower upper := Set.uIcc_subset_uIcc i1 i2 m1
      have bm : |m| ≤ M := by
        rw [Set.mem_uIcc] at m1
        rw [abs_le] at *
        rcases m1 with h | h <;> constructor <;> linarith [h.1, h.2]
      have step : ∀ w, w ≤ |up - lo| / 2 + (2.1 * uu * M + 2 * ηη) →
          w / 2 ^ n + (4.2 * uu * M + 4 * ηη) * (1 - 1 / 2 ^ n) ≤ |up - lo| / 2 ^ (n + 1) + (4.2 * uu * M + 4 * ηη) * (1 - 1 / 2 ^ (n + 1)) := by
        intro w hw
        have hp : (0 : ℝ) < 2 ^ n := by positivity
        have h1 : w / 2 ^ n ≤ (|up - lo| / 2 + (2.1 * uu * M + 2 * ηη)) / 2 ^ n := (div_le_div_iff_of_pos_right hp).2 hw
        refine (add_le_add h1 le_rfl).trans (le_of_eq ?_)
        rw [pow_succ]
        field_simp
        ring
      have w1 : |up - m| ≤ |up - lo| / 2 + (2.1 * uu * M + 2 * ηη) := by
        rw [show up - m = (up - lo) / 2 - (m - (lo + up) / 2) by ring]
        refine (abs_sub _ _).trans (add_le_add ?_ m2)
        rw [abs_div]; norm_num
      have w2 : |m - lo| ≤ |up - lo| / 2 + (2.1 * uu * M + 2 * ηη) := by
        rw [show m - lo = (up - lo) / 2 + (m - (lo + up) / 2) by ring]
        refine (abs_add_le _ _).trans (add_le_add ?_ m2)
        rw [abs_div]; norm_num
      by_cases h0 : f m = 0
      · rw [if_pos h0]; exact Or.inl h0
      · rw [if_neg h0]
        by_cases hsm : Iterate.signbit (f lo) = Iterate.signbit (f m)
        · rw [if_pos hsm]
          rcases ih m m up rm r2 bm b2 im i2 (by rw [← hsm]; exact hsg) (Or.inl rfl) with h | ⟨a, b, q1, q2, q3, q4, q5, q6, q7⟩
          · exact Or.inl h
          · exact Or.inr ⟨a, b, q1, q2, q3, q4, q5, q6, q7.trans (step _ w1)⟩
        · rw [if_neg hsm]
          rcases ih m lo m r1 rm b1 bm i1 im hsm (Or.inr (Or.inl rfl)) with h | ⟨a, b, q1, q2, q3, q4, q5, q6, q7⟩
          · exact Or.inl h
          · exact Or.inr ⟨a, b, q1, q2, q3, q4, q5, q6, q7.trans (step _ w2)⟩
  intro r
  rcases main 52 0 lower upper hl hu hM hM' Set.left_mem_uIcc Set.right_mem_uIcc hs (Or.inr (Or.inr (by norm_num))) with h | ⟨a, b, q1, q2, q3, q4, q5, q6, q7⟩
  · exact Or.inl h
  · refine Or.inr ⟨a, b, q1, q2, q3, q4, q5, q6, q7.trans ?_⟩
    have hp : 0 ≤ 4.2 * uu * M + 4 * ηη := by
      have := uu_pos; have := ηη_pos; have := (abs_nonneg _).trans hM
      positivity
    have h2 : (4.2 * uu * M + 4 * ηη) * (1 - 1 / 2 ^ 52) ≤ 4.2 * uu * M + 4 * ηη := by
      refine mul_le_of_le_one_right hp ?_
      norm_num
    linarith

/-- The bounds 0 and 2 of x² − 2 (any function of the two signs) are within the hypotheses. -/
example : Rep (0 : ℝ) ∧ Rep (2 : ℝ) ∧ Iterate.signbit ((0 : ℝ) ^ 2 - 2) ≠ Iterate.signbit ((2 : ℝ) ^ 2 - 2) :=
  ⟨by exact_mod_cast rep_int (n := 0) (by norm_num), by exact_mod_cast rep_int (n := 2) (by norm_num), by unfold Iterate.signbit; norm_num⟩

/-! Interpolation -/

/-- **C169.**  At the middle of the table three point interpolation in float64 returns the tabulated value. -/
theorem C169_middle (f1 f2 : Bool) (y0 y1 y2 : ℝ) (h : Rep y1) : Round64.interpolateN f1 f2 y0 y1 y2 0 = y1 := by
  unfold Round64.interpolateN Round64.addMul
  cases f1 <;> simp [fl_zero, fl_rep h]

theorem addMul_bound (fma : Bool) (x y z x' y' z' X Y Z εx εy εz : ℝ) (hx : |x' - x| ≤ εx) (hy : |y' - y| ≤ εy) (hz : |z' - z| ≤ εz)
    (bx : |x| ≤ X) (byy : |y| ≤ Y) (bz : |z| ≤ Z) (hYZ : 0 ≤ εz) :
    |Round64.addMul fma x' y' z' - (x + y * z)| ≤ εx + (Y + εy) * εz + εy * Z + uu * ((X + εx) + (2 + uu) * ((Y + εy) * (Z + εz))) + (2 + uu) * ηη := by
  have hu := uu_pos
  have hη := ηη_pos
  have hy' : |y'| ≤ Y + εy := by
    have := abs_sub_abs_le_abs_sub y' y
    linarith
  have hz' : |z'| ≤ Z + εz := by
    have := abs_sub_abs_le_abs_sub z' z
    linarith
  have hx' : |x'| ≤ X + εx := by
    have := abs_sub_abs_le_abs_sub x' x
    linarith
  have hY0 : 0 ≤ Y + εy := (abs_nonneg _).trans hy'
  have hZ0 : 0 ≤ Z := (abs_nonneg _).trans bz
  have hp : |y' * z'| ≤ (Y + εy) * (Z + εz) := by
    rw [abs_mul]; exact mul_le_mul hy' hz' (abs_nonneg _) hY0
  have hd : |y' * z' - y * z| ≤ (Y + εy) * εz + εy * Z := by
    rw [show y' * z' - y * z = y' * (z' - z) + (y' - y) * z by ring]
    refine (abs_add_le _ _).trans ?_
    rw [abs_mul, abs_mul]
    exact add_le_add (mul_le_mul hy' hz (abs_nonneg _) hY0) (mul_le_mul hy bz (abs_nonneg _) ((abs_nonneg _).trans hy))
  have hP0 : 0 ≤ (Y + εy) * (Z + εz) := by positivity
  unfold Round64.addMul
  generalize (Y + εy) * (Z + εz) = P at *
  have huP := mul_nonneg hu.le hP0
  cases fma with
  | true =>
    simp only [if_true]
    have h1 := fl_err (x' + y' * z')
    have h2 : |x' + y' * z'| ≤ (X + εx) + P := (abs_add_le _ _).trans (add_le_add hx' hp)
    have h3 : |fl (x' + y' * z') - (x + y * z)| ≤ |fl (x' + y' * z') - (x' + y' * z')| + |x' - x| + |y' * z' - y * z| := by
      rw [show fl (x' + y' * z') - (x + y * z) = (fl (x' + y' * z') - (x' + y' * z')) + (x' - x) + (y' * z' - y * z) by ring]
      exact (abs_add_le _ _).trans (add_le_add (abs_add_le _ _) le_rfl)
    have h4 := mul_le_mul_of_nonneg_left h2 hu.le
    have h5 := mul_nonneg hu.le huP
    have h6 := mul_nonneg hu.le hη.le
    linarith
  | false =>
    simp only [Bool.false_eq_true, if_false]
    have p1 := fl_err (y' * z')
    have p2 := fl_abs (y' * z')
    have p3 := mul_le_mul_of_nonneg_left hp hu.le
    generalize fl (y' * z') = p at *
    have h1 := fl_err (x' + p)
    have h2 : |x' + p| ≤ (X + εx) + ((1 + uu) * |y' * z'| + ηη) := (abs_add_le _ _).trans (add_le_add hx' p2)
    have h3 : |fl (x' + p) - (x + y * z)| ≤ |fl (x' + p) - (x' + p)| + |x' - x| + |p - y' * z'| + |y' * z' - y * z| := by
      rw [show fl (x' + p) - (x + y * z) = (fl (x' + p) - (x' + p)) + (x' - x) + (p - y' * z') + (y' * z' - y * z) by ring]
      exact (abs_add_le _ _).trans (add_le_add ((abs_add_le _ _).trans (add_le_add (abs_add_le _ _) le_rfl)) le_rfl)
    have h4 := mul_le_mul_of_nonneg_left h2 hu.le
    have h5 := mul_le_mul_of_nonneg_left p3 hu.le
    linarith

/-- **C169.**  Three point interpolation in float64 with |n| ≤ 1 is right to 20 · 2⁻⁵³ of the largest tabulated value. -/
theorem C169_interpolate (f1 f2 : Bool) (x1 x3 y0 y1 y2 n Y : ℝ) (hn : |n| ≤ 1) (h0 : |y0| ≤ Y) (h1 : |y1| ≤ Y) (h2 : |y2| ≤ Y)
    (hY : 2 ^ (-900 : ℤ) ≤ Y) (d : Interp.Len3) (hd : Interp.NewLen3 x1 x3 [y0, y1, y2] = .ok d) :
    |Round64.interpolateN f1 f2 y0 y1 y2 n - d.InterpolateN n| ≤ 20 * uu * Y := by
  have e : d.InterpolateN n = y1 + n * 0.5 * ((y1 - y0 + (y2 - y1)) + n * (y2 - y1 - (y1 - y0))) := by
    obtain ⟨z0, z1, z2, hy, _, hd'⟩ := newLen3_ok hd
    simp only [List.cons.injEq, and_true] at hy
    obtain ⟨rfl, rfl, rfl⟩ := hy
    rw [hd']
    unfold Interp.Len3.InterpolateN Interp.Len3.y1
    simp
  rw [e]
  have hu := uu_pos
  have hη := ηη_pos
  have hu1 := uu_small
  have hpos : (0 : ℝ) < 2 ^ (-900 : ℤ) := by positivity
  have hY0 : 0 < Y := hpos.trans_le hY
  have hη2 : ηη ≤ 1 / 1000 * (uu * Y) := by
    have h := mul_le_mul_of_nonneg_left hY hu.le
    refine le_trans ?_ (mul_le_mul_of_nonneg_left h (by norm_num))
    have e1 : ηη = 2 ^ (-175 : ℤ) * 2 ^ (-900 : ℤ) := by
      unfold ηη
      rw [← zpow_add₀ (by norm_num)]
      norm_num
    rw [e1, ← mul_assoc]
    refine mul_le_mul_of_nonneg_right ?_ hpos.le
    unfold uu
    norm_num
  have hw : 0 ≤ uu * Y := by positivity
  have hww : uu * (uu * Y) ≤ 1 / 1000000 * (uu * Y) := mul_le_mul_of_nonneg_right (hu1.trans (by norm_num)) hw
  have r : ∀ (z z' Z ε : ℝ), |z' - z| ≤ ε * (uu * Y) → |z| ≤ Z * Y → 0 ≤ ε → ε ≤ 100 → |fl z' - z| ≤ (ε + Z + 1 / 500) * (uu * Y) := by
    intro z z' Z ε g1 g2 g3 g4
    have q1 := fl_err z'
    have q2 : |z'| ≤ Z * Y + ε * (uu * Y) := by
      have := abs_sub_abs_le_abs_sub z' z
      linarith
    have q3 := mul_le_mul_of_nonneg_left q2 hu.le
    have q4 := abs_sub_le (fl z') z' z
    have q5 : ε * (uu * (uu * Y)) ≤ 100 * (1 / 1000000 * (uu * Y)) := mul_le_mul g4 hww (by positivity) (by norm_num)
    have q6 : uu * (Z * Y + ε * (uu * Y)) = Z * (uu * Y) + ε * (uu * (uu * Y)) := by ring
    rw [q6] at q3
    linarith
  have b1 : |y1 - y0| ≤ 2 * Y := (abs_sub _ _).trans (by linarith)
  have b2 : |y2 - y1| ≤ 2 * Y := (abs_sub _ _).trans (by linarith)
  have b3 : |y1 - y0 + (y2 - y1)| ≤ 2 * Y := by
    rw [show y1 - y0 + (y2 - y1) = y2 - y0 by ring]
    exact (abs_sub _ _).trans (by linarith)
  have b4 : |y2 - y1 - (y1 - y0)| ≤ 4 * Y := (abs_sub _ _).trans (by linarith)
  have ra := r (y1 - y0) (y1 - y0) 2 0 (by simp) b1 le_rfl (by norm_num)
  have rb := r (y2 - y1) (y2 - y1) 2 0 (by simp) b2 le_rfl (by norm_num)
  have rc := r (y2 - y1 - (y1 - y0)) (fl (y2 - y1) - fl (y1 - y0)) 4 (4 + 1 / 250) (by
    rw [show fl (y2 - y1) - fl (y1 - y0) - (y2 - y1 - (y1 - y0)) = (fl (y2 - y1) - (y2 - y1)) - (fl (y1 - y0) - (y1 - y0)) by ring]
    exact (abs_sub _ _).trans (by linarith)) b4 (by norm_num) (by norm_num)
  have rs := r (y1 - y0 + (y2 - y1)) (fl (y1 - y0) + fl (y2 - y1)) 2 (4 + 1 / 250) (by
    rw [show fl (y1 - y0) + fl (y2 - y1) - (y1 - y0 + (y2 - y1)) = (fl (y1 - y0) - (y1 - y0)) + (fl (y2 - y1) - (y2 - y1)) by ring]
    exact (abs_add_le _ _).trans (by linarith)) b3 (by norm_num) (by norm_num)
  have hh : |n * 0.5| ≤ 1 / 2 := by
    rw [abs_mul]; norm_num; linarith
  have rh := fl_err (n * 0.5)
  unfold Round64.interpolateN
  simp only
  generalize fl (fl (y2 - y1) - fl (y1 - y0)) = C at *
  generalize fl (fl (y1 - y0) + fl (y2 - y1)) = S at *
  generalize fl (n * 0.5) = H at *
  have i1 := addMul_bound f2 (y1 - y0 + (y2 - y1)) n (y2 - y1 - (y1 - y0)) S n C (2 * Y) 1 (4 * Y) _ 0 _ rs (by simp) rc b3 hn b4 (by positivity)
  generalize Round64.addMul f2 S n C = I at *
  have i2 : |I - (y1 - y0 + (y2 - y1) + n * (y2 - y1 - (y1 - y0)))| ≤ 24.1 * (uu * Y) := by
    refine i1.trans ?_
    have g1 : uu * ((2 * Y + (4 + 1 / 250 + 2 + 1 / 500) * (uu * Y)) + (2 + uu) * ((1 + 0) * (4 * Y + (4 + 1 / 250 + 4 + 1 / 500) * (uu * Y)))) =
        10 * (uu * Y) + (4 + 1 / 250 + 2 + 1 / 500 + 4 + 2 * (4 + 1 / 250 + 4 + 1 / 500)) * (uu * (uu * Y)) + (4 + 1 / 250 + 4 + 1 / 500) * (uu * (uu * (uu * Y))) := by ring
    have g2 : uu * (uu * (uu * Y)) ≤ uu * (uu * Y) := by
      refine mul_le_of_le_one_left (by positivity) (hu1.trans (by norm_num))
    have g3 : uu * ηη ≤ ηη := mul_le_of_le_one_left hη.le (hu1.trans (by norm_num))
    rw [g1]
    norm_num only
    linarith
  have bI : |y1 - y0 + (y2 - y1) + n * (y2 - y1 - (y1 - y0))| ≤ 4 * Y := by
    rw [abs_le] at *
    constructor <;> nlinarith [hn.1, hn.2, h0.1, h0.2, h1.1, h1.2, h2.1, h2.2]
  have hH : |H - n * 0.5| ≤ 51 / 100 * uu := by
    refine rh.trans ?_
    have := mul_le_mul_of_nonneg_left hh hu.le
    have h3 : ηη ≤ 1 / 100 * uu := by
      have e1 : ηη = 2 ^ (-1022 : ℤ) * uu := by
        unfold ηη uu
        rw [← zpow_add₀ (by norm_num)]
        norm_num
      rw [e1]
      refine mul_le_mul_of_nonneg_right ?_ hu.le
      calc (2 : ℝ) ^ (-1022 : ℤ) ≤ 2 ^ (-7 : ℤ) := zpow_le_zpow_right₀ (by norm_num) (by norm_num)
        _ ≤ 1 / 100 := by norm_num
    linarith
  have i3 := addMul_bound f1 y1 (n * 0.5) (y1 - y0 + (y2 - y1) + n * (y2 - y1 - (y1 - y0))) y1 H I Y (1 / 2) (4 * Y) 0 _ _ (by simp) hH i2 h1 hh bI (by positivity)
  refine i3.trans ?_
  have g0 : (1 / 2 + 51 / 100 * uu) * (24.1 * (uu * Y)) + 51 / 100 * uu * (4 * Y) +
      uu * (Y + 0 + (2 + uu) * ((1 / 2 + 51 / 100 * uu) * (4 * Y + 24.1 * (uu * Y)))) ≤ 19.2 * (uu * Y) := by
    have g2 : uu * (uu * (uu * Y)) ≤ uu * (uu * Y) := mul_le_of_le_one_left (by positivity) (hu1.trans (by norm_num))
    have g3 : uu * (uu * (uu * (uu * Y))) ≤ uu * (uu * (uu * Y)) := mul_le_of_le_one_left (by positivity) (hu1.trans (by norm_num))
    norm_num only
    linarith
  have g3 : uu * ηη ≤ ηη := mul_le_of_le_one_left hη.le (hu1.trans (by norm_num))
  norm_num only at g0 ⊢
  linarith

/-- A table of magnitudes near 3. -/
example : |(3.1 : ℝ)| ≤ 4 ∧ (2 : ℝ) ^ (-900 : ℤ) ≤ 4 ∧ ∃ d, Interp.NewLen3 7 9 [3.1, 3.0, 3.3] = .ok d := by
  refine ⟨by rw [abs_of_pos] <;> norm_num, ?_, ?_⟩
  · exact (zpow_le_one_of_nonpos₀ (by norm_num) (by norm_num)).trans (by norm_num)
  · unfold Interp.NewLen3; norm_num

end Verif.Props
