import Verif.Lemmas.BaseInt

namespace Verif.Props

open Verif.Go Verif.Model Verif.Lemmas

/-- C01.  `FloorDiv` panics exactly on a zero divisor and otherwise returns the
mathematical floor of the rational quotient. -/
theorem C01_floorDiv_floor (x y : Int) :
    FloorDiv x y = if y = 0 then none else some ⌊(x : ℚ) / (y : ℚ)⌋ := by
  by_cases hy : y = 0
  · simp [FloorDiv, quo?, hy]
  · have h := floorDiv_fdiv x y hy
    rw [fdiv_floor x y hy] at h
    simp only [FloorDiv, quo?, rem?, hy, if_false]
    rw [← h]
    unfold floorDiv
    split <;> simp_all

example : FloorDiv (-7) 2 = some (-4) ∧ FloorDiv 7 (-2) = some (-4) ∧ FloorDiv (-8) 2 = some (-4)
    ∧ FloorDiv 7 0 = none := by decide

/-- C01, 64 bit.  In two's complement arithmetic `FloorDiv64` returns the floor of
the quotient unless the quotient is not representable (`MinInt64 / -1`). -/
theorem C01_floorDiv64_floor (x y : Int64) (hy : y ≠ 0)
    (hov : ¬ (x = Int64.minValue ∧ y = -1)) :
    ∃ q, FloorDiv64w x y = some q ∧ q.toInt = ⌊(x.toInt : ℚ) / (y.toInt : ℚ)⌋ := by
  have hy' : y.toInt ≠ 0 := by
    intro h; apply hy; apply Int64.toInt_inj.1; simpa using h
  have hdiv : (x / y).toInt = x.toInt.tdiv y.toInt := by
    by_cases h : x = Int64.minValue
    · exact Int64.toInt_div_of_ne_right x y (fun hh => hov ⟨h, hh⟩)
    · exact Int64.toInt_div_of_ne_left x y h
  have hlow : -2 ^ 63 ≤ ⌊(x.toInt : ℚ) / (y.toInt : ℚ)⌋ := by
    rw [Int.le_floor]
    have h1 : -2 ^ 63 ≤ x.toInt := Int64.le_toInt x
    have h2 : x.toInt < 2 ^ 63 := Int64.toInt_lt x
    have h1' : (-2 ^ 63 : ℚ) ≤ x.toInt := by exact_mod_cast h1
    have h2' : (x.toInt : ℚ) < 2 ^ 63 := by exact_mod_cast h2
    push_cast
    rcases lt_or_gt_of_ne hy' with h | h
    · have hy1 : (y.toInt : ℚ) ≤ -1 := by exact_mod_cast (by omega : y.toInt ≤ -1)
      rw [le_div_iff_of_neg (by linarith)]; nlinarith
    · have hy1 : (1 : ℚ) ≤ y.toInt := by exact_mod_cast (by omega : 1 ≤ y.toInt)
      rw [le_div_iff₀ (by linarith)]; nlinarith
  rw [← fdiv_floor _ _ hy', ← floorDiv_fdiv _ _ hy'] at hlow ⊢
  have hx0 : decide (x < 0) = decide (x.toInt < 0) := by simp [Int64.lt_iff_toInt_lt]
  have hy0 : decide (y < 0) = decide (y.toInt < 0) := by simp [Int64.lt_iff_toInt_lt]
  have hr0 : (x % y != 0) = (rem x.toInt y.toInt != 0) := by
    have : (x % y = 0) ↔ (rem x.toInt y.toInt = 0) := by
      rw [← Int64.toInt_inj]; simp [rem]
    rw [Bool.eq_iff_iff, bne_iff_ne, bne_iff_ne]
    exact not_congr this
  unfold FloorDiv64w floorDiv at *
  rw [if_neg hy, hx0, hy0, hr0]
  by_cases hc : ((decide (x.toInt < 0) != decide (y.toInt < 0)) && (rem x.toInt y.toInt != 0)) = true
  · refine ⟨x / y - 1, by simp only [hc, if_true], ?_⟩
    simp only [hc, if_true, quo] at hlow ⊢
    rw [Int64.toInt_sub, hdiv]
    have hb := Int64.toInt_lt (x / y)
    rw [hdiv] at hb
    have : Int64.toInt 1 = 1 := by decide
    rw [this, Int.bmod_eq_of_le (by omega) (by omega)]
  · refine ⟨x / y, by simp only [hc]; rfl, ?_⟩
    simp only [hc]
    exact hdiv

example : FloorDiv64w (-7) 2 = some (-4) ∧ FloorDiv64w Int64.minValue 2 = some (-4611686018427387904) := by
  decide

/-- C01, 64 bit.  The excluded case wraps to `MinInt64`; a zero divisor panics. -/
theorem C01_floorDiv64_exceptions :
    FloorDiv64w Int64.minValue (-1) = some Int64.minValue ∧ ∀ x, FloorDiv64w x 0 = none := by
  constructor
  · decide
  · intro x; simp [FloorDiv64w]

end Verif.Props
