import Verif.Lemmas.Hebrew

namespace Verif.Lemmas

open Verif.Go Verif.Spec Verif.Model Verif.Model.Julian Verif.Model.Jm

/-- The molad of the year in whole parts, counted from the 22nd day before March 1 of the Julian year. -/
def gaussX (y : Int) : Int :=
  489829 * y + 434069 - 765433 * ((12 * y + 12) / 19) - 25920 * (y / 4)

theorem gauss_molad (y : Int) (hy : 0 ≤ y) :
    Hebrew.molad (y + 3761) + 6480 = gaussX y + 25920 * (365 * y + y / 4 + 1373305) := by
  rw [molad_eq _ (by omega)]
  have h : (235 * (y + 3761) - 234) / 19 = 13 * y - (12 * y + 12) / 19 + 46505 := by omega
  rw [h]; unfold gaussX; ring

theorem bigS_eq (y : Int) : bigS y = if y ≥ 1583 then y / 100 - y / 100 / 4 - 2 else 0 := by
  unfold bigS
  simp only [floorDiv_pos _ 100 (by norm_num), floorDiv_pos _ 4 (by norm_num)]
  split_ifs
  · omega
  · rfl

theorem exactQ_eq (y : Int) (hy : 0 ≤ y) :
    ∃ e : ℚ, exactQ y = (gaussX y : ℚ) / 25920 + (bigS y : Int) + e ∧
      343 / 1000000000000 ≤ e ∧ e ≤ 348 / 1000000000000 + y * (923 / 10000000000000000) := by
  have h19 : ((12 * y + 12 : Int) : ℚ) = 19 * (((12 * y + 12) / 19 : Int) : ℚ) + (((12 * y + 12) % 19 : Int) : ℚ) := by
    exact_mod_cast (Int.mul_ediv_add_emod (12 * y + 12) 19).symm
  have h4 : (y : ℚ) = 4 * ((y / 4 : Int) : ℚ) + ((y % 4 : Int) : ℚ) := by
    exact_mod_cast (Int.mul_ediv_add_emod y 4).symm
  have ha0 : (0 : ℚ) ≤ (((12 * y + 12) % 19 : Int) : ℚ) := by
    exact_mod_cast Int.emod_nonneg _ (by norm_num)
  have ha18 : (((12 * y + 12) % 19 : Int) : ℚ) ≤ 18 := by
    have := Int.emod_lt_of_pos (12 * y + 12) (show (0 : Int) < 19 by norm_num)
    have h : (12 * y + 12) % 19 ≤ 18 := by omega
    exact_mod_cast h
  have hy0 : (0 : ℚ) ≤ y := by exact_mod_cast hy
  refine ⟨66817/192375000000000 - 281/1539000000000000 * (((12 * y + 12) % 19 : Int) : ℚ)
    + 71/769500000000000 * y, ?_, ?_, ?_⟩
  · unfold exactQ gaussX
    rw [rem_nonneg_eq (show 0 ≤ 12 * y + 12 by omega), rem_nonneg_eq hy]
    push_cast at *
    generalize (bigS y : ℚ) = S
    generalize (((12 * y + 12) / 19 : Int) : ℚ) = t at *
    generalize (((12 * y + 12) % 19 : Int) : ℚ) = a at *
    generalize ((y / 4 : Int) : ℚ) = s at *
    generalize ((y % 4 : Int) : ℚ) = b at *
    linarith
  · linarith
  · linarith

/-- `bigD` on every `Q` within `3·10⁻¹⁰` of the exact value. -/
theorem bigDOf_eq (y : Int) (hy : 0 ≤ y) (hy1 : y ≤ 400000000) (Q : ℚ)
    (hQ : |Q - exactQ y| ≤ 3 / 10000000000) :
    ∃ q p : Int, gaussX y = 25920 * q + p ∧ 0 ≤ p ∧ p < 25920 ∧ ⌊Q⌋ = q + bigS y ∧
      (Q - ⌊Q⌋ ≥ 63287037 / 100000000 ↔ 16404 ≤ p) ∧ (Q - ⌊Q⌋ ≥ 897723765 / 1000000000 ↔ 23269 ≤ p) := by
  obtain ⟨e, he, he1, he2⟩ := exactQ_eq y hy
  obtain ⟨hQ1, hQ2⟩ := abs_le.1 hQ
  have hyq : (y : ℚ) ≤ 400000000 := by exact_mod_cast hy1
  obtain ⟨q, p, hX, hp0, hp1⟩ : ∃ q p : Int, gaussX y = 25920 * q + p ∧ 0 ≤ p ∧ p < 25920 :=
    ⟨gaussX y / 25920, gaussX y % 25920, by omega, by omega, by omega⟩
  have hXq : (gaussX y : ℚ) = 25920 * q + p := by exact_mod_cast hX
  rw [hXq] at he
  have hp1q : (p : ℚ) ≤ 25919 := by exact_mod_cast (show p ≤ 25919 by omega)
  have hp0q : (0 : ℚ) ≤ p := by exact_mod_cast hp0
  have hfl : ⌊Q⌋ = q + bigS y := by
    rw [Int.floor_eq_iff]; push_cast
    constructor <;> linarith
  refine ⟨q, p, hX, hp0, hp1, hfl, ?_, ?_⟩
  · rw [hfl]; push_cast
    constructor
    · intro h
      by_contra hc
      have : (p : ℚ) ≤ 16403 := by exact_mod_cast (show p ≤ 16403 by omega)
      linarith
    · intro h
      have : (16404 : ℚ) ≤ p := by exact_mod_cast h
      linarith
  · rw [hfl]; push_cast
    constructor
    · intro h
      by_contra hc
      have : (p : ℚ) ≤ 23268 := by exact_mod_cast (show p ≤ 23268 by omega)
      linarith
    · intro h
      have : (23269 : ℚ) ≤ p := by exact_mod_cast h
      linarith

set_option maxHeartbeats 4000000 in
/-- The day computed by `bigD` is the Hebrew new year. -/
theorem bigD_newYear (y : Int) (hy : 0 ≤ y) (hy1 : y ≤ 400000000) (Q : ℚ)
    (hQ : |Q - exactQ y| ≤ 3 / 10000000000) :
    365 * y + y / 4 + (bigDOf y Q - bigS y) + 1373283 = Hebrew.newYear (y + 3761) := by
  obtain ⟨q, p, hX, hp0, hp1, hfl, hr1, hr2⟩ := bigDOf_eq y hy hy1 Q hQ
  have hM := gauss_molad y hy
  have hL1 : Hebrew.Leap (y + 3761) ↔ ¬ (12 * y + 12) % 19 > 6 := by
    unfold Hebrew.Leap
    obtain ⟨k, r, hr0, hr, hn⟩ : ∃ k r : Int, 0 ≤ r ∧ r < 19 ∧ y = 19 * k + r :=
      ⟨y / 19, y % 19, by omega, by omega, by omega⟩
    rw [hn]; interval_cases r <;> omega
  have hL0 : Hebrew.Leap (y + 3761 - 1) ↔ (12 * y + 12) % 19 > 11 := by
    unfold Hebrew.Leap
    obtain ⟨k, r, hr0, hr, hn⟩ : ∃ k r : Int, 0 ≤ r ∧ r < 19 ∧ y = 19 * k + r :=
      ⟨y / 19, y % 19, by omega, by omega, by omega⟩
    rw [hn]; interval_cases r <;> omega
  have hq : 0 ≤ q + 3 * y + 2 := by
    unfold gaussX at hX
    rcases eq_or_lt_of_le hy with h | h
    · subst h; norm_num at hX; omega
    · omega
  unfold bigDOf Hebrew.newYear
  simp only [hL1, hL0, not_not]
  simp only [hr1, hr2]
  rw [hfl, rem_nonneg_eq (show 0 ≤ 12 * y + 12 by omega), rem_nonneg_eq hy]
  have hnn : 0 ≤ q + bigS y + 3 * y + 5 * (y % 4) + 2 - bigS y := by omega
  rw [rem_nonneg_eq hnn]
  obtain ⟨s, b, hb0, hb, hyb⟩ : ∃ s b : Int, 0 ≤ b ∧ b < 4 ∧ y = 4 * s + b :=
    ⟨y / 4, y % 4, by omega, by omega, by omega⟩
  obtain ⟨d, hd⟩ : ∃ d, d = q + 365 * y + y / 4 + 1373305 := ⟨_, rfl⟩
  have hj : (q + bigS y + 3 * y + 5 * (y % 4) + 2 - bigS y) % 7 = (d + 6) % 7 := by
    rw [hd]
    generalize bigS y = S
    have e1 : y / 4 = s := by omega
    have e2 : y % 4 = b := by omega
    rw [e1, e2, hyb]; omega
  rw [hj]
  have hm1 : Hebrew.molad (y + 3761) = 25920 * d + p - 6480 := by rw [hd]; linarith
  rw [hm1]
  have ey : 365 * y + y / 4 = d - q - 1373305 := by omega
  rw [ey]
  generalize bigS y = S
  generalize (12 * y + 12) % 19 = a
  clear hr1 hr2 hfl hX hm1 hM hL0 hL1 hj hnn hyb hd ey hQ
  obtain ⟨u, v, hv0, hv, hw⟩ : ∃ u v : Int, 0 ≤ v ∧ v < 7 ∧ d = 7 * u + v :=
    ⟨d / 7, d % 7, by omega, by omega, by omega⟩
  subst hw
  have e3 : (25920 * (7 * u + v) + p - 6480) / 25920 = 7 * u + v - (if p < 6480 then 1 else 0) := by
    split_ifs <;> omega
  have e4 : (25920 * (7 * u + v) + p - 6480) % 25920 = p - 6480 + (if p < 6480 then 25920 else 0) := by
    split_ifs <;> omega
  rw [e3, e4]
  clear e3 e4
  by_cases h6 : p < 6480 <;> simp only [h6, if_true, if_false] <;>
  interval_cases v <;> split_ifs <;> omega

end Verif.Lemmas
