import Mathlib.Data.Int.Log
import Mathlib.Data.Real.Basic
import Mathlib.Algebra.Order.Round
import Mathlib.Tactic
/-
float64: rounding to nearest, ties to even, in the format binary64 (53 bits, least exponent −1074).  The exponent has no upper limit here: overflow is
excluded where the layer is used by bounds on the values.
-/
namespace Verif.Go.F64

/-- Nearest integer, ties to even. -/
noncomputable def rne (x : ℝ) : ℤ :=
  if Int.fract x < 1 / 2 then ⌊x⌋ else if 1 / 2 < Int.fract x then ⌊x⌋ + 1 else if Even ⌊x⌋ then ⌊x⌋ else ⌊x⌋ + 1

/-- The exponent of the last place of the number nearest to x. -/
noncomputable def expo (x : ℝ) : ℤ := max (Int.log 2 |x| - 52) (-1074)

/-- The float64 nearest to x. -/
noncomputable def fl (x : ℝ) : ℝ := rne (x / 2 ^ expo x) * 2 ^ expo x

/-- The values of float64. -/
def Rep (x : ℝ) : Prop := ∃ m k : ℤ, x = m * 2 ^ k ∧ |m| ≤ 2 ^ 53 ∧ -1074 ≤ k

theorem rne_near (x : ℝ) : |rne x - x| ≤ 1 / 2 := by
  have h := Int.fract_add_floor x
  have h0 := Int.fract_nonneg x
  have h1 := Int.fract_lt_one x
  unfold rne
  rw [abs_le]
  split_ifs <;> push_cast <;> constructor <;> linarith

/-- No integer is nearer. -/
theorem rne_best (x : ℝ) (n : ℤ) : |rne x - x| ≤ |n - x| := by
  have h := Int.fract_add_floor x
  have h0 := Int.fract_nonneg x
  have h1 := Int.fract_lt_one x
  by_contra hc
  push Not at hc
  have h2 := rne_near x
  have h3 : |((rne x - n : ℤ) : ℝ)| < 1 := by
    push_cast
    rw [show (rne x - n : ℝ) = (rne x - x) - (n - x) by ring]
    refine (abs_sub _ _).trans_lt ?_
    linarith
  have h4 : rne x = n := by
    have : |rne x - n| < 1 := by exact_mod_cast h3
    rw [Int.abs_lt_one_iff] at this
    linarith
  rw [h4] at hc
  exact lt_irrefl _ hc

theorem rne_int (n : ℤ) : rne n = n := by
  have h := rne_best n n
  rw [sub_self, abs_zero] at h
  have h2 := abs_nonpos_iff.mp h
  exact_mod_cast sub_eq_zero.mp h2

theorem two_zpow_pos (k : ℤ) : (0 : ℝ) < 2 ^ k := by positivity

theorem log_spec {x : ℝ} (h : x ≠ 0) : (2 : ℝ) ^ Int.log 2 |x| ≤ |x| ∧ |x| < 2 ^ (Int.log 2 |x| + 1) := by
  have hx := abs_pos.mpr h
  have h1 := Int.zpow_log_le_self (b := 2) (r := |x|) (by norm_num) hx
  have h2 := Int.lt_zpow_succ_log_self (b := 2) (by norm_num) |x|
  exact ⟨by exact_mod_cast h1, by exact_mod_cast h2⟩

theorem expo_ge (x : ℝ) : -1074 ≤ expo x := le_max_right _ _

theorem abs_lt_expo (x : ℝ) : |x| < 2 ^ (53 + expo x) := by
  by_cases h : x = 0
  · rw [h, abs_zero]; positivity
  · refine (log_spec h).2.trans_le ?_
    refine zpow_le_zpow_right₀ (by norm_num) ?_
    have : Int.log 2 |x| - 52 ≤ expo x := le_max_left _ _
    linarith

theorem fl_zero : fl 0 = 0 := by
  unfold fl
  have := rne_int 0
  simp only [Int.cast_zero] at this
  simp [this]

/-- The values of float64 are not rounded. -/
theorem fl_rep {x : ℝ} (h : Rep x) : fl x = x := by
  obtain ⟨m, k, e, hm, hk⟩ := h
  by_cases h0 : x = 0
  · rw [h0]; exact fl_zero
  have key : ∃ n : ℤ, x / 2 ^ expo x = n := by
    by_cases hke : expo x ≤ k
    · refine ⟨m * 2 ^ (k - expo x).toNat, ?_⟩
      have h1 : ((k - expo x).toNat : ℤ) = k - expo x := Int.toNat_of_nonneg (by linarith)
      rw [div_eq_iff (two_zpow_pos _).ne']
      push_cast
      rw [← zpow_natCast (2 : ℝ), h1, mul_assoc, ← zpow_add₀ (by norm_num)]
      rw [show k - expo x + expo x = k by ring]
      exact e
    · push Not at hke
      have he : expo x = Int.log 2 |x| - 52 := by
        unfold expo at hke ⊢
        rcases le_total (Int.log 2 |x| - 52) (-1074) with h2 | h2
        · rw [max_eq_right h2] at hke; linarith
        · exact max_eq_left h2
      have hl := (log_spec h0).1
      have hx : |x| = |(m : ℝ)| * 2 ^ k := by rw [e, abs_mul, abs_of_pos (two_zpow_pos k)]
      have hm' : |(m : ℝ)| ≤ 2 ^ (53 : ℤ) := by
        have : ((|m| : ℤ) : ℝ) ≤ ((2 ^ 53 : ℤ) : ℝ) := Int.cast_le.mpr hm
        push_cast at this
        norm_num at this ⊢
        exact this
      have hle : (2 : ℝ) ^ Int.log 2 |x| ≤ 2 ^ (53 + k) := by
        rw [zpow_add₀ (by norm_num)]
        rw [hx] at hl
        refine (le_of_eq ?_).trans (hl.trans (mul_le_mul_of_nonneg_right hm' (two_zpow_pos k).le))
        rw [hx]
      have hle' := (zpow_le_zpow_iff_right₀ (by norm_num : (1 : ℝ) < 2)).mp hle
      have hk2 : k = Int.log 2 |x| - 53 := by omega
      have hm2 : |(m : ℝ)| = 2 ^ (53 : ℤ) := by
        refine le_antisymm hm' ?_
        rw [hx] at hl
        have : (2 : ℝ) ^ (53 : ℤ) * 2 ^ k ≤ |(m : ℝ)| * 2 ^ k := by
          rw [← zpow_add₀ (by norm_num)]
          refine le_trans (le_of_eq ?_) hl
          rw [← hx]; congr 1; omega
        exact le_of_mul_le_mul_right this (two_zpow_pos k)
      have h3 : (2 : ℝ) ^ k = 2 ^ expo x / 2 := by
        rw [he, show Int.log 2 |x| - 52 = k + 1 by omega, zpow_add₀ (by norm_num)]; norm_num
      generalize expo x = E at *
      rcases abs_choice (m : ℝ) with h4 | h4
      · refine ⟨2 ^ 52, ?_⟩
        rw [div_eq_iff (two_zpow_pos _).ne', e, ← h4, hm2, h3]
        push_cast; norm_num; ring
      · refine ⟨-2 ^ 52, ?_⟩
        rw [div_eq_iff (two_zpow_pos _).ne', e, show (m : ℝ) = -|(m : ℝ)| by rw [h4]; ring, hm2, h3]
        push_cast; norm_num; ring
  obtain ⟨n, hn⟩ := key
  unfold fl
  rw [hn, rne_int, ← hn]
  exact div_mul_cancel₀ _ (two_zpow_pos _).ne'

/-- Rounding gives a value of float64. -/
theorem rep_fl (x : ℝ) : Rep (fl x) := by
  refine ⟨rne (x / 2 ^ expo x), expo x, rfl, ?_, expo_ge x⟩
  have h := abs_lt_expo x
  rw [zpow_add₀ (by norm_num)] at h
  have h2 : |x / 2 ^ expo x| < 2 ^ 53 := by
    rw [abs_div, abs_of_pos (two_zpow_pos _), div_lt_iff₀ (two_zpow_pos _)]
    exact_mod_cast h
  have h3 := rne_near (x / 2 ^ expo x)
  rw [abs_le] at h3
  rw [abs_lt] at h2
  rw [abs_le]
  constructor
  · have : ((-2 ^ 53 - 1 : ℤ) : ℝ) < (rne (x / 2 ^ expo x) : ℝ) := by push_cast; linarith
    have := Int.cast_lt.mp this
    linarith
  · have : (rne (x / 2 ^ expo x) : ℝ) < ((2 ^ 53 + 1 : ℤ) : ℝ) := by push_cast; linarith
    have := Int.cast_lt.mp this
    linarith

theorem fl_fl (x : ℝ) : fl (fl x) = fl x := fl_rep (rep_fl x)

/-- Half a unit in the last place. -/
theorem fl_near (x : ℝ) : |fl x - x| ≤ 2 ^ expo x / 2 := by
  unfold fl
  have h := rne_near (x / 2 ^ expo x)
  have e : (rne (x / 2 ^ expo x) : ℝ) * 2 ^ expo x - x = (rne (x / 2 ^ expo x) - x / 2 ^ expo x) * 2 ^ expo x := by
    rw [sub_mul, div_mul_cancel₀ _ (two_zpow_pos _).ne']
  rw [e, abs_mul, abs_of_pos (two_zpow_pos _)]
  nlinarith [two_zpow_pos (expo x)]

/-- Below 2ⁿ the error is at most 2ⁿ⁻⁵⁴. -/
theorem fl_near_lt {x : ℝ} {n : ℤ} (h : |x| < 2 ^ n) (hn : -1021 ≤ n) : |fl x - x| ≤ 2 ^ (n - 54) := by
  by_cases h0 : x = 0
  · rw [h0, fl_zero, sub_zero, abs_zero]; positivity
  refine (fl_near x).trans ?_
  have he : expo x ≤ n - 53 := by
    refine max_le ?_ (by omega)
    have := (zpow_lt_zpow_iff_right₀ (by norm_num : (1 : ℝ) < 2)).mp ((log_spec h0).1.trans_lt h)
    omega
  calc (2 : ℝ) ^ expo x / 2 ≤ 2 ^ (n - 53) / 2 := by
        have := zpow_le_zpow_right₀ (by norm_num : (1 : ℝ) ≤ 2) he
        linarith
    _ = 2 ^ (n - 54) := by
        rw [show n - 53 = n - 54 + 1 by ring, zpow_add₀ (by norm_num)]; norm_num

/-- The relative error. -/
theorem fl_rel {x : ℝ} (h : 2 ^ (-1022 : ℤ) ≤ |x|) : |fl x - x| ≤ 2 ^ (-53 : ℤ) * |x| := by
  have h0 : x ≠ 0 := by
    intro h0
    rw [h0, abs_zero] at h
    exact absurd h (not_le.mpr (two_zpow_pos _))
  refine (fl_near x).trans ?_
  have hl := log_spec h0
  have he : expo x = Int.log 2 |x| - 52 := by
    refine max_eq_left ?_
    have := (zpow_lt_zpow_iff_right₀ (by norm_num : (1 : ℝ) < 2)).mp (h.trans_lt hl.2)
    omega
  rw [he, show Int.log 2 |x| - 52 = (-53 : ℤ) + (Int.log 2 |x| + 1) by ring, zpow_add₀ (by norm_num), zpow_add₀ (by norm_num : (2 : ℝ) ≠ 0) (Int.log 2 |x|)]
  have := mul_le_mul_of_nonneg_left hl.1 (two_zpow_pos (-53)).le
  norm_num at this ⊢
  linarith

/-- No value of float64 is nearer. -/
theorem fl_best (x : ℝ) {z : ℝ} (hz : Rep z) : |fl x - x| ≤ |z - x| := by
  by_cases h0 : x = 0
  · rw [h0, fl_zero, sub_zero, abs_zero]; exact abs_nonneg _
  obtain ⟨m, k, e, hm, hk⟩ := hz
  have hm' : |(m : ℝ)| ≤ 2 ^ (53 : ℤ) := by
    have : ((|m| : ℤ) : ℝ) ≤ ((2 ^ 53 : ℤ) : ℝ) := Int.cast_le.mpr hm
    push_cast at this
    norm_num at this ⊢
    exact this
  have hp := two_zpow_pos (expo x)
  have mult : ∀ n : ℤ, |fl x - x| ≤ |n * 2 ^ expo x - x| := by
    intro n
    have h := rne_best (x / 2 ^ expo x) n
    have e1 : ∀ j : ℤ, |(j : ℝ) * 2 ^ expo x - x| = |j - x / 2 ^ expo x| * 2 ^ expo x := by
      intro j
      have h1 : (j : ℝ) * 2 ^ expo x - x = (j - x / 2 ^ expo x) * 2 ^ expo x := by
        rw [sub_mul, div_mul_cancel₀ _ hp.ne']
      rw [h1, abs_mul, abs_of_pos hp]
    unfold fl
    rw [e1, e1]
    exact mul_le_mul_of_nonneg_right h hp.le
  by_cases hke : expo x ≤ k
  · have h1 : ((k - expo x).toNat : ℤ) = k - expo x := Int.toNat_of_nonneg (by linarith)
    have h2 := mult (m * 2 ^ (k - expo x).toNat)
    push_cast at h2
    rw [← zpow_natCast (2 : ℝ), h1, mul_assoc, ← zpow_add₀ (by norm_num), show k - expo x + expo x = k by ring, ← e] at h2
    exact h2
  · push Not at hke
    have he : expo x = Int.log 2 |x| - 52 := by
      unfold expo at hke ⊢
      rcases le_total (Int.log 2 |x| - 52) (-1074) with h2 | h2
      · rw [max_eq_right h2] at hke; linarith
      · exact max_eq_left h2
    have hl := (log_spec h0).1
    have hz : |z| ≤ 2 ^ Int.log 2 |x| := by
      rw [e, abs_mul, abs_of_pos (two_zpow_pos k)]
      calc |(m : ℝ)| * 2 ^ k ≤ 2 ^ (53 : ℤ) * 2 ^ k := mul_le_mul_of_nonneg_right hm' (two_zpow_pos k).le
        _ = 2 ^ (53 + k) := (zpow_add₀ (by norm_num) _ _).symm
        _ ≤ _ := zpow_le_zpow_right₀ (by norm_num) (by omega)
    have hE : ((2 ^ 52 : ℤ) : ℝ) * 2 ^ expo x = 2 ^ Int.log 2 |x| := by
      rw [he, show Int.log 2 |x| = 52 + (Int.log 2 |x| - 52) by ring, zpow_add₀ (by norm_num)]
      push_cast
      norm_num
    rcases le_total 0 x with hx | hx
    · refine (mult (2 ^ 52)).trans ?_
      rw [hE]
      rw [abs_of_nonneg hx] at *
      have h3 := (abs_le.mp hz).2
      rw [abs_sub_comm, abs_of_nonneg (by linarith), abs_sub_comm, abs_of_nonneg (by linarith)]
      linarith
    · refine (mult (-2 ^ 52)).trans ?_
      have h3 := (abs_le.mp hz).1
      rw [abs_of_nonpos hx] at *
      rw [show ((-2 ^ 52 : ℤ) : ℝ) * 2 ^ expo x = -2 ^ Int.log 2 (-x) by rw [← hE]; push_cast; ring]
      rw [abs_of_nonneg (by linarith), abs_of_nonneg (by linarith)]
      linarith

/-- Rounding keeps the order. -/
theorem fl_mono {x y : ℝ} (h : x ≤ y) : fl x ≤ fl y := by
  by_contra hc
  push Not at hc
  have h1 := fl_best x (rep_fl y)
  have h2 := fl_best y (rep_fl x)
  rcases eq_or_lt_of_le h with he | hlt
  · rw [he] at hc; exact lt_irrefl _ hc
  · have h3 := sq_le_sq.mpr h1
    have h4 := sq_le_sq.mpr h2
    nlinarith

/-- A value of float64 below x is below the rounded x. -/
theorem le_fl {x z : ℝ} (hz : Rep z) (h : z ≤ x) : z ≤ fl x := by
  have := fl_mono h
  rwa [fl_rep hz] at this

theorem fl_le {x z : ℝ} (hz : Rep z) (h : x ≤ z) : fl x ≤ z := by
  have := fl_mono h
  rwa [fl_rep hz] at this

/-- Integers. -/
theorem rep_int {n : ℤ} (h : |n| ≤ 2 ^ 53) : Rep n := ⟨n, 0, by simp, h, by norm_num⟩

/-- A multiple of 2ᵏ not above 2⁵³⁺ᵏ. -/
theorem rep_of {x : ℝ} {k : ℤ} (n : ℤ) (hk : -1074 ≤ k) (h : x = n * 2 ^ k) (hx : |x| ≤ 2 ^ (53 + k)) : Rep x := by
  refine ⟨n, k, h, ?_, hk⟩
  rw [h, abs_mul, abs_of_pos (two_zpow_pos k), zpow_add₀ (by norm_num)] at hx
  have := le_of_mul_le_mul_right hx (two_zpow_pos k)
  have h2 : ((|n| : ℤ) : ℝ) ≤ ((2 ^ 53 : ℤ) : ℝ) := by push_cast; norm_num at this ⊢; exact this
  exact Int.cast_le.mp h2

end Verif.Go.F64
