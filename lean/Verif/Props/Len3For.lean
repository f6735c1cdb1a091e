import Verif.Props.Interp
import Mathlib.Tactic.Push

/-! Property C29: selection of three rows from a longer table. -/

namespace Verif.Props

open Verif.Go Verif.Model Verif.Model.Interp Verif.Spec Verif.Lemmas

theorem take3 (y : List ℝ) (k : ℕ) (h : k + 2 < y.length) :
    (y.drop k).take 3 = [y[k], y[k + 1], y[k + 2]] := by
  have h1 : k < y.length := by omega
  have h2 : k + 1 < y.length := by omega
  rw [List.drop_eq_getElem_cons h1, List.drop_eq_getElem_cons h2, List.drop_eq_getElem_cons h]
  rfl

/-- Row index the code selects. -/
theorem nearest_bounds (t : ℝ) (L : Int) (hL : 3 < L) (nx : Int)
    (hnx : nx = if trunc (t + 0.5) < 1 then 1 else if trunc (t + 0.5) > L - 2 then L - 2 else trunc (t + 0.5)) :
    1 ≤ nx ∧ nx ≤ L - 2 ∧ (∀ i : Int, 1 ≤ i → i ≤ L - 2 → |t - nx| ≤ |t - i|) ∧
    (0 ≤ t → t ≤ L - 1 → |t - nx| ≤ 1) := by
  have hL' : (3 : ℝ) < L := by exact_mod_cast hL
  by_cases h1 : trunc (t + 0.5) < 1
  · rw [if_pos h1] at hnx
    subst hnx
    have ht : t < 0.5 := by
      by_contra hge
      rw [trunc_nonneg (by linarith)] at h1
      have : (1 : ℤ) ≤ ⌊t + 0.5⌋ := Int.le_floor.2 (by push_cast; norm_num at hge ⊢; linarith)
      omega
    refine ⟨le_rfl, by omega, ?_, ?_⟩
    · intro i hi _
      have : (1 : ℝ) ≤ i := by exact_mod_cast hi
      push_cast
      rw [abs_of_nonpos (by linarith), abs_of_nonpos (by linarith)]
      linarith
    · intro h0 _
      push_cast
      rw [abs_le]; constructor <;> linarith
  · rw [if_neg h1] at hnx
    have hpos : 0 ≤ t + 0.5 := by
      by_contra hneg
      push Not at hneg
      apply h1
      unfold trunc
      rw [if_pos hneg]
      have : ⌈t + 0.5⌉ ≤ 0 := Int.ceil_le.2 (by push_cast; linarith)
      omega
    rw [trunc_nonneg hpos] at h1 hnx
    have f1 := Int.floor_le (t + 0.5)
    have f2 := Int.lt_floor_add_one (t + 0.5)
    by_cases h2 : ⌊t + 0.5⌋ > L - 2
    · rw [if_pos h2] at hnx
      subst hnx
      have h3 : (L : ℝ) - 1 ≤ (⌊t + 0.5⌋ : ℝ) := by
        have : L - 1 ≤ ⌊t + 0.5⌋ := by omega
        exact_mod_cast this
      refine ⟨by omega, le_rfl, ?_, ?_⟩
      · intro i _ hi
        have : (i : ℝ) ≤ L - 2 := by exact_mod_cast hi
        push_cast
        rw [abs_of_nonneg (by linarith), abs_of_nonneg (by linarith)]
        linarith
      · intro _ h0
        push_cast
        rw [abs_le]; constructor <;> linarith
    · rw [if_neg h2] at hnx
      push Not at h1 h2
      have habs : |t - nx| ≤ 0.5 := by
        rw [hnx, abs_le]; constructor <;> linarith
      refine ⟨by omega, by omega, ?_, fun _ _ => habs.trans (by norm_num)⟩
      intro i _ _
      by_cases hi : i = nx
      · rw [hi]
      · have : (1 : ℝ) ≤ |(nx : ℝ) - i| := by
          have : (1 : ℤ) ≤ |nx - i| := Int.one_le_abs (sub_ne_zero.2 (Ne.symm hi))
          exact_mod_cast this
        have h3 := abs_sub_abs_le_abs_sub ((nx : ℝ) - i) (nx - t)
        rw [show (nx : ℝ) - i - (nx - t) = t - i by ring, abs_sub_comm (nx : ℝ) t] at h3
        linarith

/-- C29.  For a table of at least three rows and a non-empty x range the constructor never panics; it
selects three consecutive rows, the central one (row `k+1`) being nearest to `x` among the rows that have two
neighbours. -/
theorem C29_selects (x x1 xn : ℝ) (y : List ℝ) (hL : 3 ≤ y.length) (hx : x1 ≠ xn) :
    ∃ (d : Len3) (k : ℕ) (hk : k + 2 < y.length),
      Len3ForInterpolateX x x1 xn y = .ret (.ok d) ∧
      NewLen3 (x1 + k * ((xn - x1) / (y.length - 1))) (x1 + (k + 2) * ((xn - x1) / (y.length - 1)))
        [y[k], y[k + 1], y[k + 2]] = .ok d ∧
      (∀ i : ℕ, 1 ≤ i → i + 1 < y.length →
        |x - (x1 + (k + 1) * ((xn - x1) / (y.length - 1)))| ≤ |x - (x1 + i * ((xn - x1) / (y.length - 1)))|) ∧
      (min x1 xn ≤ x ∧ x ≤ max x1 xn →
        |x - (x1 + (k + 1) * ((xn - x1) / (y.length - 1)))| ≤ |(xn - x1) / (y.length - 1)|) := by
  have hLr : (3 : ℝ) ≤ y.length := by exact_mod_cast hL
  have hx' : xn - x1 ≠ 0 := sub_ne_zero.2 (Ne.symm hx)
  obtain ⟨h, hh⟩ : ∃ h, h = (xn - x1) / ((y.length : ℝ) - 1) := ⟨_, rfl⟩
  have hL1 : (y.length : ℝ) - 1 ≠ 0 := by intro h; linarith
  have hh0 : h ≠ 0 := by rw [hh]; exact div_ne_zero hx' hL1
  have hxn : xn = x1 + ((y.length : ℝ) - 1) * h := by rw [hh]; field_simp; ring
  simp only [← hh]
  have hin : min x1 xn ≤ x ∧ x ≤ max x1 xn → 0 ≤ (x - x1) / h ∧ (x - x1) / h ≤ (y.length : ℝ) - 1 := by
    intro ⟨ha, hb⟩
    rcases lt_or_gt_of_ne hh0 with hneg | hpos
    · have : xn ≤ x1 := by rw [hxn]; nlinarith
      rw [min_eq_right this] at ha
      rw [max_eq_left this] at hb
      exact ⟨div_nonneg_of_nonpos (by linarith) hneg.le, by rw [div_le_iff_of_neg hneg]; linarith⟩
    · have hpos : 0 < h := hpos
      have : x1 ≤ xn := by rw [hxn]; nlinarith
      rw [min_eq_left this] at ha
      rw [max_eq_right this] at hb
      exact ⟨div_nonneg (by linarith) hpos.le, by rw [div_le_iff₀ hpos]; linarith⟩
  have hdist : ∀ s : ℝ, |x - (x1 + s * h)| = |(x - x1) / h - s| * |h| := by
    intro s
    rw [← abs_mul]
    congr 1
    field_simp
    ring
  by_cases h3 : y.length > 3
  · obtain ⟨nx, hnx⟩ : ∃ nx, nx = if trunc ((x - x1) / h + 0.5) < 1 then 1 else
        if trunc ((x - x1) / h + 0.5) > (y.length : Int) - 2 then (y.length : Int) - 2 else trunc ((x - x1) / h + 0.5) := ⟨_, rfl⟩
    obtain ⟨b1, b2, b3, b4⟩ := nearest_bounds ((x - x1) / h) y.length (by omega) nx hnx
    obtain ⟨k, hk⟩ : ∃ k : ℕ, nx = k + 1 := ⟨(nx - 1).toNat, by omega⟩
    have hkl : k + 2 < y.length := by omega
    have hkr : (nx : ℝ) = k + 1 := by rw [hk]; push_cast; ring
    obtain ⟨d, hd⟩ : ∃ d, NewLen3 (x1 + k * h) (x1 + (k + 2) * h) [y[k], y[k + 1], y[k + 2]] = .ok d := by
      refine ((C20_newLen3_errors _ _ _).1).2 ⟨by simp, ?_⟩
      intro he
      apply hh0
      linarith
    refine ⟨d, k, hkl, ?_, hd, ?_, ?_⟩
    · unfold Len3ForInterpolateX
      rw [if_pos h3]
      simp only [← hh, hh0, if_false, ← hnx]
      rw [slice, if_pos (by omega)]
      simp only
      rw [show (nx - 1).toNat = k by omega, show (nx + 2 - (nx - 1)).toNat = 3 by omega, take3 y k hkl, hkr,
        show (k : ℝ) + 1 - 1 = k by ring, show (k : ℝ) + 1 + 1 = k + 2 by ring, hd]
    · intro i hi1 hi2
      rw [hdist, hdist]
      refine mul_le_mul_of_nonneg_right ?_ (abs_nonneg h)
      have := b3 i (by omega) (by omega)
      rw [hkr] at this
      exact_mod_cast this
    · intro hr
      rw [hdist]
      obtain ⟨c1, c2⟩ := hin hr
      have := b4 c1 (by exact_mod_cast c2)
      rw [hkr] at this
      nlinarith [abs_nonneg h]
  · have hl3 : y.length = 3 := by omega
    obtain ⟨d, hd⟩ : ∃ d, NewLen3 x1 xn y = .ok d := ((C20_newLen3_errors _ _ _).1).2 ⟨hl3, hx⟩
    have hy : y = [y[0], y[0 + 1], y[0 + 2]] := by
      rw [← take3 y 0 (by omega)]; simp [hl3]
    have e2 : (y.length : ℝ) - 1 = 2 := by rw [hl3]; norm_num
    refine ⟨d, 0, by omega, ?_, ?_, ?_, ?_⟩
    · unfold Len3ForInterpolateX; rw [if_neg h3, hd]
    · rw [← hy, ← hd, hh, e2]; congr 1 <;> push_cast <;> ring
    · intro i h1 h2
      obtain rfl : i = 1 := by omega
      simp
    · intro hr
      rw [hdist]
      obtain ⟨c1, c2⟩ := hin hr
      rw [e2] at c2
      have : |(x - x1) / h - (((0 : ℕ) : ℝ) + 1)| ≤ 1 := by
        rw [abs_le]; constructor <;> push_cast <;> linarith
      nlinarith [abs_nonneg h]

/-- C29.  Interpolating at a tabulated abscissa returns the tabulated value. -/
theorem C29_tabulated (x1 xn : ℝ) (y : List ℝ) (hL : 3 ≤ y.length) (hx : x1 ≠ xn) (i : ℕ) (hi : i < y.length) :
    ∃ d, Len3ForInterpolateX (x1 + i * ((xn - x1) / (y.length - 1))) x1 xn y = .ret (.ok d) ∧
      d.InterpolateX (x1 + i * ((xn - x1) / (y.length - 1))) = y[i] := by
  obtain ⟨d, k, hk, hr, hd, hnear, -⟩ := C29_selects (x1 + i * ((xn - x1) / (y.length - 1))) x1 xn y hL hx
  refine ⟨d, hr, ?_⟩
  have hLr : (3 : ℝ) ≤ y.length := by exact_mod_cast hL
  have hL1 : (y.length : ℝ) - 1 ≠ 0 := by intro h; linarith
  have hx' : xn - x1 ≠ 0 := sub_ne_zero.2 (Ne.symm hx)
  obtain ⟨h, hh⟩ : ∃ h, h = (xn - x1) / ((y.length : ℝ) - 1) := ⟨_, rfl⟩
  have hh0 : h ≠ 0 := by rw [hh]; exact div_ne_zero hx' hL1
  simp only [← hh] at hnear hd ⊢
  -- distance of i and k+1
  have hd' : ∀ m : ℕ, 1 ≤ m → m + 1 < y.length → |(i : ℝ) - (k + 1)| ≤ |(i : ℝ) - m| := by
    intro m h1 h2
    have := hnear m h1 h2
    rw [show x1 + i * h - (x1 + (k + 1) * h) = (i - (k + 1)) * h by ring,
      show x1 + i * h - (x1 + m * h) = (i - m) * h by ring, abs_mul, abs_mul] at this
    exact le_of_mul_le_mul_right this (abs_pos.2 hh0)
  have hki : k ≤ i ∧ i ≤ k + 2 := by
    have key : ∀ m : ℕ, 1 ≤ m → m + 1 < y.length → |(i : ℤ) - (k + 1)| ≤ |(i : ℤ) - m| := by
      intro m h1 h2; exact_mod_cast hd' m h1 h2
    by_cases h0 : i = 0
    · have := key 1 le_rfl (by omega)
      subst h0
      rw [abs_le] at this
      norm_num at this
      omega
    · by_cases h1 : i + 1 < y.length
      · have := key i (by omega) h1
        simp at this
        omega
      · have := key (i - 1) (by omega) (by omega)
        rw [abs_le] at this
        have e : (i : ℤ) - ((i - 1 : ℕ) : ℤ) = 1 := by omega
        rw [e] at this
        norm_num at this
        omega
  have ht := (C20_len3_polynomial _ _ _ _ hd).2 (i - k) (by simp; omega)
  have e1 : x1 + k * h + ((i - k : ℕ) : ℝ) * ((x1 + (k + 2) * h - (x1 + k * h)) / (([y[k], y[k + 1], y[k + 2]].length : ℝ) - 1)) = x1 + i * h := by
    rw [Nat.cast_sub hki.1]
    norm_num
    ring
  rw [e1] at ht
  rw [ht]
  obtain ⟨m, rfl⟩ : ∃ m, i = k + m := ⟨i - k, by omega⟩
  simp only [Nat.add_sub_cancel_left]
  have : m = 0 ∨ m = 1 ∨ m = 2 := by omega
  rcases this with rfl | rfl | rfl <;> rfl

/-- C29.  Failures: too few rows or an empty x range, never a panic. -/
theorem C29_errors (x x1 xn : ℝ) (y : List ℝ) :
    (y.length < 3 → Len3ForInterpolateX x x1 xn y = .ret (.error .Not3)) ∧
    (3 ≤ y.length → x1 = xn → Len3ForInterpolateX x x1 xn y = .ret (.error .NoXRange)) := by
  constructor
  · intro h
    unfold Len3ForInterpolateX
    rw [if_neg (by omega), ((C20_newLen3_errors x1 xn y).2.1).2 (by omega)]
  · intro h he
    unfold Len3ForInterpolateX
    by_cases h3 : y.length > 3
    · rw [if_pos h3]; simp [he]
    · rw [if_neg h3, ((C20_newLen3_errors x1 xn y).2.2).2 ⟨by omega, he⟩]

end Verif.Props
