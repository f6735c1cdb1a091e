import Verif.Model.BaseInt
import Mathlib.Data.Rat.Floor
import Mathlib.Tactic.Linarith
import Mathlib.Tactic.FieldSimp

namespace Verif.Lemmas

open Verif.Go Verif.Model

theorem floorDiv_fdiv (x y : Int) (hy : y ≠ 0) : floorDiv x y = Int.fdiv x y := by
  unfold floorDiv
  have hdm : y * quo x y + rem x y = x := Int.mul_tdiv_add_tmod x y
  have hfm : y * Int.fdiv x y + Int.fmod x y = x := Int.mul_fdiv_add_fmod x y
  have hlt : (rem x y).natAbs < y.natAbs := by
    have := Int.natAbs_tmod x y
    rw [rem, this]; exact Nat.mod_lt _ (Int.natAbs_pos.2 hy)
  have hs : 0 ≤ x → 0 ≤ rem x y := fun h => Int.tmod_nonneg _ h
  have hs' : x ≤ 0 → rem x y ≤ 0 := fun h => by
    have := Int.tmod_nonneg y (by omega : 0 ≤ -x)
    rw [Int.neg_tmod] at this; simp only [rem]; omega
  have hf1 : 0 < y → 0 ≤ Int.fmod x y ∧ Int.fmod x y < y := fun h =>
    ⟨Int.fmod_nonneg_of_pos _ h, Int.fmod_lt_of_pos _ h⟩
  have hf2 : y < 0 → y < Int.fmod x y ∧ Int.fmod x y ≤ 0 := fun h => by
    have h1 := Int.fmod_nonneg_of_pos (-x) (b := -y) (by omega)
    have h2 := Int.fmod_lt_of_pos (-x) (b := -y) (by omega)
    rw [Int.neg_fmod_neg] at h1 h2
    omega
  have key : ∀ q r q' r' : Int, y * q + r = x → y * q' + r' = x →
      r - r' < y.natAbs → r' - r < y.natAbs → q = q' := by
    intro q r q' r' h1 h2 h3 h4
    have h5 : y * (q - q') = r' - r := by grind
    by_contra hne
    have h6 : 1 ≤ (q - q').natAbs := by omega
    have h7 : (y * (q - q')).natAbs = y.natAbs * (q - q').natAbs := Int.natAbs_mul _ _
    have h8 : y.natAbs ≤ y.natAbs * (q - q').natAbs := Nat.le_mul_of_pos_right _ h6
    rw [h5] at h7
    omega
  rcases Int.lt_trichotomy y 0 with h | h | h
  · have := hf2 h
    by_cases hx : x < 0
    · simp only [hx, h, decide_true, bne_self_eq_false, Bool.false_and, Bool.false_eq_true, if_false]
      exact key _ _ _ _ hdm hfm (by omega) (by omega)
    · by_cases hr : rem x y = 0
      · simp only [hr, bne_self_eq_false, Bool.and_false, Bool.false_eq_true, if_false]
        exact key _ _ _ _ hdm hfm (by omega) (by omega)
      · simp [hx, h, hr]
        exact key (quo x y - 1) (rem x y + y) _ _ (by grind) hfm (by omega) (by omega)
  · omega
  · have := hf1 h
    have hy' : ¬ y < 0 := by omega
    by_cases hx : x < 0
    · by_cases hr : rem x y = 0
      · simp only [hr, bne_self_eq_false, Bool.and_false, Bool.false_eq_true, if_false]
        exact key _ _ _ _ hdm hfm (by omega) (by omega)
      · simp [hx, hy', hr]
        exact key (quo x y - 1) (rem x y + y) _ _ (by grind) hfm (by omega) (by omega)
    · simp only [hx, hy', decide_false, bne_self_eq_false, Bool.false_and, Bool.false_eq_true, if_false]
      exact key _ _ _ _ hdm hfm (by omega) (by omega)

theorem floorDiv_pos (x k : Int) (hk : 0 < k) : floorDiv x k = x / k := by
  rw [floorDiv_fdiv _ _ (by omega), Int.fdiv_eq_ediv_of_nonneg _ (by omega)]

theorem fdiv_floor (x y : Int) (hy : y ≠ 0) : Int.fdiv x y = ⌊(x : ℚ) / (y : ℚ)⌋ := by
  symm
  rw [Int.floor_eq_iff]
  have hfm : y * Int.fdiv x y + Int.fmod x y = x := Int.mul_fdiv_add_fmod x y
  have hq : (x : ℚ) / y = (Int.fdiv x y : ℚ) + (Int.fmod x y : ℚ) / y := by
    have : (y : ℚ) ≠ 0 := by exact_mod_cast hy
    field_simp
    have h2 : (x : ℚ) = y * Int.fdiv x y + Int.fmod x y := by exact_mod_cast hfm.symm
    linarith
  have hr : 0 ≤ (Int.fmod x y : ℚ) / y ∧ (Int.fmod x y : ℚ) / y < 1 := by
    rcases lt_or_gt_of_ne hy with h | h
    · have h1 := Int.fmod_nonneg_of_pos (-x) (b := -y) (by omega)
      have h2 := Int.fmod_lt_of_pos (-x) (b := -y) (by omega)
      rw [Int.neg_fmod_neg] at h1 h2
      have h1' : (Int.fmod x y : ℚ) ≤ 0 := by exact_mod_cast (by omega)
      have h2' : (y : ℚ) < Int.fmod x y := by exact_mod_cast (by omega)
      have h3 : (y : ℚ) < 0 := by exact_mod_cast h
      exact ⟨div_nonneg_of_nonpos h1' h3.le, by rw [div_lt_one_of_neg h3]; exact h2'⟩
    · have h1 := Int.fmod_nonneg_of_pos x h
      have h2 := Int.fmod_lt_of_pos x h
      have h1' : (0 : ℚ) ≤ Int.fmod x y := by exact_mod_cast h1
      have h2' : (Int.fmod x y : ℚ) < y := by exact_mod_cast h2
      have h3 : (0 : ℚ) < y := by exact_mod_cast h
      exact ⟨div_nonneg h1' h3.le, by rw [div_lt_one h3]; exact h2'⟩
  constructor <;> linarith

end Verif.Lemmas
