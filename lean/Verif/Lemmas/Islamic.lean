import Verif.Model.Jm
import Verif.Spec.Islamic
import Verif.Lemmas.JulianReal
import Mathlib.Tactic.Linarith
import Mathlib.Tactic.IntervalCases

namespace Verif.Lemmas

open Verif.Go Verif.Spec Verif.Model Verif.Model.Julian Verif.Model.Jm

theorem islamic_leap_iff (y : Int) : Islamic.Leap y ↔ (11 * (y % 30) + 3) % 30 > 18 := by
  unfold Islamic.Leap
  have h0 : 0 ≤ y % 30 := Int.emod_nonneg _ (by norm_num)
  have h1 : y % 30 < 30 := Int.emod_lt_of_pos _ (by norm_num)
  generalize y % 30 = r at *
  interval_cases r <;> decide

theorem islamic_yearsLen (n : Nat) : Islamic.yearsLen n = 354 * (n : Int) + (11 * n + 14) / 30 := by
  induction n with
  | zero => simp [Islamic.yearsLen]
  | succ n ih =>
    rw [Islamic.yearsLen, ih, Islamic.yearLen]
    have h := islamic_leap_iff ((n : Int) + 1)
    push_cast
    by_cases hl : Islamic.Leap ((n : Int) + 1) <;> simp only [hl, if_true, if_false, true_iff, false_iff] at h ⊢
    · obtain ⟨k, r, hr0, hr, hn⟩ : ∃ k r : Int, 0 ≤ r ∧ r < 30 ∧ (n : Int) = 30 * k + r :=
        ⟨(n : Int) / 30, (n : Int) % 30, by omega, by omega, by omega⟩
      rw [hn] at h ⊢; clear hl ih hn
      interval_cases r <;> omega
    · obtain ⟨k, r, hr0, hr, hn⟩ : ∃ k r : Int, 0 ≤ r ∧ r < 30 ∧ (n : Int) = 30 * k + r :=
        ⟨(n : Int) / 30, (n : Int) % 30, by omega, by omega, by omega⟩
      rw [hn] at h ⊢; clear hl ih hn
      interval_cases r <;> omega

theorem islamic_yearsLen' (y : Int) (hy : 1 ≤ y) :
    Islamic.yearsLen (y - 1).toNat = 354 * (y - 1) + (11 * y + 3) / 30 := by
  rw [islamic_yearsLen]
  have : (((y - 1).toNat : Nat) : Int) = y - 1 := by omega
  rw [this]; congr 2; ring

theorem islamic_monthsLen (y m : Int) (h1 : 1 ≤ m) (h2 : m ≤ 12) :
    Islamic.monthsLen y (m - 1).toNat = 29 * (m - 1) + m / 2 := by
  interval_cases m <;> simp [Islamic.monthsLen, Islamic.monthLen]

theorem moslem_leap (y : Int) (hy : 0 ≤ y) : MoslemLeapYear y = decide (Islamic.Leap y) := by
  unfold MoslemLeapYear
  rw [rem_nonneg_eq hy, rem_nonneg_eq (by omega), decide_eq_decide, islamic_leap_iff]

/-- Julian day count of a (year, day of year) pair. -/
theorem dayCountJ_doy (y n : Int) : dayCount LeapJ y 1 n = 365 * (y - 1) + (y - 1) / 4 + n + 365 := by
  have h := julN_dayCount y 1 n (by norm_num) (by norm_num)
  unfold julN shiftYM at h
  norm_num at h
  omega

theorem epoch_dayCount : dayCount LeapJ 622 7 16 = 227382 := by
  have := julN_dayCount 622 7 16 (by norm_num) (by norm_num)
  have h3 : julN 622 7 16 = 1948440 := by decide
  omega

/-- Intermediate form of `MoslemToJulian`. -/
theorem moslemToJulian_facts (y m d : Int) (hy : 1 ≤ y) (h1 : 1 ≤ m) (h2 : m ≤ 12) (hd : 1 ≤ d) (hd2 : d ≤ 30) :
    ∃ X J, MoslemToJulian y m d = (X, J) ∧ 622 ≤ X ∧ 0 ≤ J ∧ J ≤ (if 4 ∣ X then 366 else 365) ∧
      365 * (X - 1) + (X - 1) / 4 + J = 354 * (y - 1) + (11 * y + 3) / 30 + 29 * (m - 1) + m / 2 + d + 227016 := by
  unfold MoslemToJulian
  obtain ⟨Q, R, hR0, hR, hyR⟩ : ∃ Q R : Int, 0 ≤ R ∧ R < 30 ∧ y = 30 * Q + R :=
    ⟨y / 30, y % 30, by omega, by omega, by omega⟩
  simp only [floorDiv_pos _ 10000 (by norm_num), floorDiv_pos _ 30 (by norm_num),
    floorDiv_pos _ 1461 (by norm_num), floorDiv_pos _ 3652422 (by norm_num)]
  rw [rem_nonneg_eq (show 0 ≤ y by omega)]
  have eQ : y / 30 = Q := by omega
  have eR : y % 30 = R := by omega
  have hQ : 0 ≤ Q := by omega
  have eA : (11 * y + 3) / 30 = 11 * Q + (11 * R + 3) / 30 := by omega
  have eN : (295001 * (m - 1) + 9900) / 10000 = 29 * (m - 1) + m / 2 := by
    interval_cases m <;> norm_num
  rw [eQ, eR, eA, eN]
  obtain ⟨A, hA⟩ : ∃ A, A = (11 * R + 3) / 30 := ⟨_, rfl⟩
  rw [← hA]
  have hW : 0 ≤ 404 * Q + 354 * R + 208 + A := by omega
  rw [rem_nonneg_eq hW]
  obtain ⟨Q1, Q2, h20, h21, hQQ⟩ : ∃ Q1 Q2 : Int, 0 ≤ Q2 ∧ Q2 < 1461 ∧ 404 * Q + 354 * R + 208 + A = 1461 * Q1 + Q2 :=
    ⟨(404 * Q + 354 * R + 208 + A) / 1461, (404 * Q + 354 * R + 208 + A) % 1461, by omega, by omega, by omega⟩
  have e1 : (404 * Q + 354 * R + 208 + A) / 1461 = Q1 := by omega
  have e2 : (404 * Q + 354 * R + 208 + A) % 1461 = Q2 := by omega
  have hQ1 : 0 ≤ Q1 := by omega
  rw [e1, e2]
  obtain ⟨K, hK⟩ : ∃ K, K = Q2 * 10000 / 3652422 := ⟨_, rfl⟩
  rw [← hK]
  have hK0 : 0 ≤ K := by omega
  have hK3 : K ≤ 3 := by omega
  have eE : 3652422 * K / 10000 = 365 * K := by interval_cases K <;> norm_num
  rw [eE]
  rw [rem_nonneg_eq (show 0 ≤ 621 + 28 * Q + 4 * Q1 + K by omega)]
  have hx4 : (621 + 28 * Q + 4 * Q1 + K) % 4 = (1 + K) % 4 := by omega
  rw [hx4]
  obtain ⟨M, hM0, hM1, hM⟩ : ∃ M : Int, 0 ≤ M ∧ M ≤ 325 ∧ M = 29 * (m - 1) + m / 2 := ⟨_, by omega, by omega, rfl⟩
  rw [← hM]
  have hrel : Q2 - 365 * K + 0 = 404 * Q + 354 * R + 208 + A - 1461 * Q1 - 365 * K := by omega
  have hlow : 0 ≤ Q2 - 365 * K ∧ Q2 - 365 * K ≤ 365 := by omega
  clear e1 e2 eQ eR eA eN hK
  split_ifs with c1 c2
  · refine ⟨_, _, rfl, by omega, by omega, ?_, ?_⟩
    · split_ifs <;> omega
    · have : (621 + 28 * Q + 4 * Q1 + K + 1 - 1) / 4 = 156 + 7 * Q + Q1 := by omega
      rw [this, hyR]; omega
  · refine ⟨_, _, rfl, by omega, by omega, ?_, ?_⟩
    · split_ifs <;> omega
    · have : (621 + 28 * Q + 4 * Q1 + K + 1 - 1) / 4 = 155 + 7 * Q + Q1 := by omega
      rw [this, hyR]; omega
  · refine ⟨_, _, rfl, by omega, by omega, ?_, ?_⟩
    · split_ifs <;> omega
    · have : (621 + 28 * Q + 4 * Q1 + K - 1) / 4 = 155 + 7 * Q + Q1 := by omega
      rw [this, hyR]; omega

/-! ### ymd -/

theorem ymd_eq (b : Int) : ymd b = fromA (b - 1524) := by
  unfold ymd fromA
  have hb : b - 1524 + 1524 = b := by ring
  simp only [hb, floorDiv_pos _ 100 (by norm_num), floorDiv_pos _ 36525 (by norm_num),
    floorDiv_pos _ 306001 (by norm_num), floorDiv_pos _ 10000 (by norm_num)]
  obtain ⟨c, hc⟩ : ∃ c, c = (b * 100 - 12210) / 36525 := ⟨_, rfl⟩
  rw [← hc]
  obtain ⟨f, hf⟩ : ∃ f, f = b - 36525 * c / 100 := ⟨_, rfl⟩
  rw [← hf]
  have hf1 : 122 < f ∧ f ≤ 488 := by omega
  obtain ⟨e, he⟩ : ∃ e, e = f * 10000 / 306001 := ⟨_, rfl⟩
  rw [← he]
  have he1 : 4 ≤ e ∧ e ≤ 15 := by omega
  clear hc hf hf1 hb he
  have h1 : (if e < 14 then e - 1 else e - 13) = (if e = 14 ∨ e = 15 then e - 13 else e - 1) := by
    split_ifs <;> omega
  rw [h1]
  have h2 : 1 ≤ (if e = 14 ∨ e = 15 then e - 13 else e - 1) := by split_ifs <;> omega
  generalize (if e = 14 ∨ e = 15 then e - 13 else e - 1) = M at *
  congr 1
  split_ifs <;> omega

end Verif.Lemmas

namespace Verif.Lemmas

open Verif.Go Verif.Spec Verif.Model Verif.Model.Julian Verif.Model.Jm

theorem moslemC2_eq (A : Int) (hA : 0 ≤ A) :
    1461 * (A / 4) + moslemC2 A = 365 * (A + 622) + (A + 622) / 4 - 227185 := by
  unfold moslemC2
  rw [rem_nonneg_eq hA]
  obtain ⟨s, b, hb0, hb, hyb⟩ : ∃ s b : Int, 0 ≤ b ∧ b < 4 ∧ A = 4 * s + b :=
    ⟨A / 4, A % 4, by omega, by omega, by omega⟩
  have e1 : A / 4 = s := by omega
  have e2 : A % 4 = b := by omega
  rw [e1, e2, hyb]
  interval_cases b
  · have : ⌊(36525001 / 100000 * ((0 : Int) : ℚ) : ℚ)⌋ = 0 := by norm_num
    simp only [this]; norm_num; omega
  · have : ⌊(36525001 / 100000 * ((1 : Int) : ℚ) : ℚ)⌋ = 365 := by norm_num [Int.floor_eq_iff]
    simp only [this]; norm_num; omega
  · have : ⌊(36525001 / 100000 * ((2 : Int) : ℚ) : ℚ)⌋ = 730 := by norm_num [Int.floor_eq_iff]
    simp only [this]; norm_num; omega
  · have : ⌊(36525001 / 100000 * ((3 : Int) : ℚ) : ℚ)⌋ = 1095 := by norm_num [Int.floor_eq_iff]
    simp only [this]; norm_num; omega

/-- Day of the year as computed in `JulianToMoslem`. -/
theorem moslem_N (y m d : Int) (hy : 0 ≤ y) (h1 : 1 ≤ m) (h2 : m ≤ 12) :
    floorDiv (275 * m) 9 - (if rem y 4 = 0 then 1 else 2) * floorDiv (m + 9) 12 + d - 30 =
      monthsLen (LeapJ y) (m - 1).toNat + d := by
  rw [monthsLen_eq _ m h1 h2, rem_nonneg_eq hy, floorDiv_pos _ 9 (by norm_num), floorDiv_pos _ 12 (by norm_num)]
  by_cases hl : LeapJ y
  · have h4 : y % 4 = 0 := by unfold LeapJ at hl; omega
    simp only [hl, h4, if_true]
    interval_cases m <;> norm_num <;> ring
  · have h4 : ¬ y % 4 = 0 := by unfold LeapJ at hl; omega
    simp only [hl, h4, if_false]
    interval_cases m <;> norm_num <;> ring

/-- `JulianToMoslem` in terms of the Moslem year `H` of January 1 and the day `p` of that year on which
January 1 falls. -/
theorem julianToMoslem_eq (y m d H p : Int) (hy : 623 ≤ y) (h1 : 1 ≤ m) (h2 : m ≤ 12) (hH : 1 ≤ H)
    (hp : 1 ≤ p) (hp2 : p ≤ 342)
    (hjan : dayCount LeapJ y 1 1 - dayCount LeapJ 622 7 16 = Islamic.dayCount H 1 p) :
    JulianToMoslem y m d =
      let JJ := p + (monthsLen (LeapJ y) (m - 1).toNat + d) - 1
      let days := if MoslemLeapYear y then 355 else 354
      let H' := if JJ > days then H + 1 else H
      let JJ' := if JJ > days then JJ - days else JJ
      if JJ' = 355 then (H', 12, 30)
      else (H', 1 + (JJ' - 1) * 10 / 295, (10 * JJ' - 295 * ((JJ' - 1) * 10 / 295)) / 10) := by
  unfold JulianToMoslem
  simp only [moslem_N y m d (by omega) h1 h2]
  have hC := moslemC2_eq (y - 623) (by omega)
  rw [dayCountJ_doy, epoch_dayCount, Islamic.dayCount, islamic_yearsLen' H hH,
    islamic_monthsLen H 1 (by norm_num) (by norm_num)] at hjan
  simp only [floorDiv_pos _ 4 (by norm_num), floorDiv_pos _ 10631 (by norm_num), floorDiv_pos _ 354 (by norm_num),
    floorDiv_pos _ 30 (by norm_num), floorDiv_pos _ 295 (by norm_num), floorDiv_pos _ 10 (by norm_num)]
  obtain ⟨Q, j, hj0, hj, hHj⟩ : ∃ Q j : Int, 0 ≤ j ∧ j < 30 ∧ H = 30 * Q + j + 1 :=
    ⟨(H - 1) / 30, (H - 1) % 30, by omega, by omega, by omega⟩
  have hQ0 : 0 ≤ Q := by omega
  obtain ⟨o, ho⟩ : ∃ o, o = (11 * j + 14) / 30 := ⟨_, rfl⟩
  have ho11 : 0 ≤ o ∧ o ≤ 11 := by omega
  have eo : (11 * H + 3) / 30 = 11 * Q + o := by rw [hHj, ho]; omega
  have e623 : y - 623 + 622 = y - 1 := by ring
  rw [e623] at hC
  obtain ⟨Dp, hDp⟩ : ∃ Dp, Dp = 1461 * ((y - 623) / 4) + 170 + moslemC2 (y - 623) := ⟨_, rfl⟩
  rw [← hDp]
  have hDp2 : Dp = 10631 * Q + (354 * j + o + p) := by
    rw [eo] at hjan
    have : 365 * (y - 1) + (y - 1) / 4 = Dp + 227015 := by omega
    omega
  have hDp0 : 0 ≤ Dp := by omega
  rw [rem_nonneg_eq hDp0]
  have eQ : Dp / 10631 = Q := by clear ho eo hjan hC hDp; omega
  have eR : Dp % 10631 = 354 * j + o + p := by clear ho eo hjan hC hDp; omega
  rw [eQ, eR, rem_nonneg_eq (by omega)]
  have eJ : (354 * j + o + p) / 354 = j := by clear ho; omega
  have eK : (354 * j + o + p) % 354 = o + p := by clear ho; omega
  rw [eJ, eK, ← ho, ← hHj]
  have e5 : o + p - o = p := by ring
  rw [e5, Int.add_sub_assoc, ← Int.add_sub_assoc]

/-- Splitting a day of the Moslem year into month and day. -/
theorem moslem_split (y m d : Int) (hv : Islamic.Valid y m d) (hne : ¬ (m = 12 ∧ d = 30)) :
    let JJ := Islamic.monthsLen y (m - 1).toNat + d
    JJ ≤ 354 ∧ 1 ≤ JJ ∧ 1 + (JJ - 1) * 10 / 295 = m ∧ (10 * JJ - 295 * ((JJ - 1) * 10 / 295)) / 10 = d := by
  intro JJ
  obtain ⟨-, h1, h2, h3, h4⟩ := hv
  have hJJ : JJ = 29 * (m - 1) + m / 2 + d := by simp only [JJ]; rw [islamic_monthsLen y m h1 h2]
  have hd : d ≤ if m % 2 = 1 then 30 else 29 := by
    unfold Islamic.monthLen at h4
    split_ifs at h4 ⊢ <;> omega
  rw [hJJ]
  clear_value JJ
  clear h4
  interval_cases m <;> norm_num at hd hne ⊢ <;> omega

end Verif.Lemmas
