import Verif.Lemmas.Islamic

/-! Properties C14 – C17: the Moslem calendar and the Julian / Gregorian conversions of package jm. -/

namespace Verif.Props

open Verif.Go Verif.Model Verif.Model.Julian Verif.Model.Jm Verif.Spec Verif.Lemmas

/-- C14.  The Julian (year, day of year) returned denotes the same day as the tabular Islamic date,
1 Muharram 1 being Julian 622 July 16.  Day 0 of a year stands for December 31 before it. -/
theorem C14_moslemToJulian_day (y m d : Int) (hv : Islamic.Valid y m d) :
    dayCount LeapJ (MoslemToJulian y m d).1 1 (MoslemToJulian y m d).2 - dayCount LeapJ 622 7 16 =
      Islamic.dayCount y m d := by
  obtain ⟨hy, h1, h2, h3, h4⟩ := hv
  have hd : d ≤ 30 := by
    have : Islamic.monthLen y m ≤ 30 := by unfold Islamic.monthLen; split_ifs <;> norm_num
    omega
  obtain ⟨X, J, he, -, -, -, hs⟩ := moslemToJulian_facts y m d hy h1 h2 h3 hd
  rw [he]
  dsimp only
  rw [dayCountJ_doy, epoch_dayCount, Islamic.dayCount, islamic_yearsLen' y hy, islamic_monthsLen y m h1 h2]
  omega

/-- C14 (partial).  The day of year is within `0 .. 365/366`; the property asks for a lower bound 1. -/
theorem C14_dayOfYear_range_partial (y m d : Int) (hv : Islamic.Valid y m d) :
    0 ≤ (MoslemToJulian y m d).2 ∧ (MoslemToJulian y m d).2 ≤ yearLen LeapJ (MoslemToJulian y m d).1 := by
  obtain ⟨hy, h1, h2, h3, h4⟩ := hv
  have hd : d ≤ 30 := by
    have : Islamic.monthLen y m ≤ 30 := by unfold Islamic.monthLen; split_ifs <;> norm_num
    omega
  obtain ⟨X, J, he, -, hJ0, hJ1, -⟩ := moslemToJulian_facts y m d hy h1 h2 h3 hd
  rw [he]
  exact ⟨hJ0, hJ1⟩

/-- C14 (partial).  Day 0 can only be produced for 1 Muharram. -/
theorem C14_dayOfYear_pos_partial (y m d : Int) (hv : Islamic.Valid y m d) (hn : ¬ (m = 1 ∧ d = 1)) :
    1 ≤ (MoslemToJulian y m d).2 := by
  have hlen : ∀ m, Islamic.monthLen y m ≤ 30 := by
    intro m; unfold Islamic.monthLen; split_ifs <;> norm_num
  obtain ⟨hy, h1, h2, h3, h4⟩ := hv
  have hd : d ≤ 30 := by have := hlen m; omega
  obtain ⟨X, J, he, -, hJ0, hJ1, hs⟩ := moslemToJulian_facts y m d hy h1 h2 h3 hd
  obtain ⟨X', J', he', -, hJ0', hJ1', hs'⟩ := moslemToJulian_facts y 1 1 hy (by norm_num) (by norm_num) (by norm_num) (by norm_num)
  rw [he]
  dsimp only
  by_contra hc
  have hJ : J = 0 := by omega
  -- with J = 0 the date is the last day of year X - 1, at most 354 days after 1 Muharram
  subst hJ
  unfold MoslemToJulian at he
  simp only [floorDiv_pos _ 10000 (by norm_num), floorDiv_pos _ 30 (by norm_num),
    floorDiv_pos _ 1461 (by norm_num), floorDiv_pos _ 3652422 (by norm_num)] at he
  rw [rem_nonneg_eq (show 0 ≤ y by omega)] at he
  have hW : 0 ≤ 404 * (y / 30) + 354 * (y % 30) + 208 + (11 * (y % 30) + 3) / 30 := by omega
  rw [rem_nonneg_eq hW] at he
  obtain ⟨Q2, h20, h21, hQ2⟩ : ∃ Q2 : Int, 0 ≤ Q2 ∧ Q2 < 1461 ∧
    (404 * (y / 30) + 354 * (y % 30) + 208 + (11 * (y % 30) + 3) / 30) % 1461 = Q2 := ⟨_, by omega, by omega, rfl⟩
  rw [hQ2] at he
  have hK0 : 0 ≤ Q2 * 10000 / 3652422 := by omega
  have hK3 : Q2 * 10000 / 3652422 ≤ 3 := by omega
  have hlow : 0 ≤ Q2 - 3652422 * (Q2 * 10000 / 3652422) / 10000 := by omega
  have eN : (295001 * (m - 1) + 9900) / 10000 = 29 * (m - 1) + m / 2 := by
    interval_cases m <;> norm_num
  rw [eN] at he
  have hN : 2 ≤ d + (29 * (m - 1) + m / 2) := by omega
  split_ifs at he <;> simp only [Prod.mk.injEq] at he <;> omega

example : Islamic.Valid 1421 1 1 ∧ MoslemToJulian 1421 1 1 = (2000, 84) := by
  refine ⟨by unfold Islamic.Valid; decide, by decide⟩

/-- C14, violation: 1 Muharram 556 is returned as day number 0 of 1161, which is no day of that year. -/
theorem C14_violation : Islamic.Valid 556 1 1 ∧ MoslemToJulian 556 1 1 = (1161, 0) := by
  refine ⟨by unfold Islamic.Valid; decide, by decide⟩

/-- C15.  `MoslemLeapYear` is true exactly in the tabular leap years. -/
theorem C15_moslemLeapYear (y : Int) (hy : 1 ≤ y) : MoslemLeapYear y = true ↔ Islamic.yearLen y = 355 := by
  rw [moslem_leap y (by omega), decide_eq_true_iff, Islamic.yearLen]
  by_cases h : Islamic.Leap y <;> simp [h]

/-- C15.  Exactly 11 of any 30 consecutive years are leap years. -/
theorem C15_moslemLeapYear_density (y : Int) (hy : 1 ≤ y) : countYears MoslemLeapYear y 30 = 11 := by
  have key : ∀ n : Nat, countYears MoslemLeapYear y n =
      (11 * (y + n) + 3) / 30 - (11 * y + 3) / 30 := by
    intro n
    induction n with
    | zero => simp [countYears]
    | succ n ih =>
      rw [countYears, ih, moslem_leap _ (by omega)]
      have h := islamic_leap_iff (y + n)
      push_cast
      simp only [decide_eq_true_eq]
      obtain ⟨z, hz⟩ : ∃ z, z = y + (n : Int) := ⟨_, rfl⟩
      rw [show y + ((n : Int) + 1) = z + 1 by omega]
      rw [← hz] at h ⊢
      obtain ⟨k, r, hr0, hr, hn⟩ : ∃ k r : Int, 0 ≤ r ∧ r < 30 ∧ z = 30 * k + r :=
        ⟨z / 30, z % 30, by omega, by omega, by omega⟩
      have hm : z % 30 = r := by omega
      rw [hm] at h
      have e1 : (11 * (z + 1) + 3) / 30 = 11 * k + (11 * r + 14) / 30 := by rw [hn]; omega
      have e2 : (11 * z + 3) / 30 = 11 * k + (11 * r + 3) / 30 := by rw [hn]; omega
      rw [e1, e2]
      by_cases hl : Islamic.Leap z <;> simp only [hl, if_true, if_false, true_iff, false_iff] at h ⊢ <;>
        omega
  rw [key]; push_cast; omega

example : MoslemLeapYear 1421 = false ∧ MoslemLeapYear 1420 = true := by decide

/-- C17.  Julian (year, day of year) to Gregorian: from the reform on, the result is a valid Gregorian
date denoting the same day. -/
theorem C17_julianToGregorian (y n : Int)
    (hr : dayCount LeapJ 1582 10 5 ≤ dayCount LeapJ y 1 n) :
    let r := JulianToGregorian y n
    ValidDate LeapG r.1 r.2.1 r.2.2 ∧
    CalendarGregorianToJD r.1 r.2.1 r.2.2 = CalendarJulianToJD y 1 n := by
  intro r
  have hc : dayCount LeapJ 1582 10 5 = 578103 := by
    have := julN_dayCount 1582 10 5 (by norm_num) (by norm_num)
    have h3 : julN 1582 10 5 = 2299161 := by decide
    omega
  have hN := julN_dayCount y 1 n (by norm_num) (by norm_num)
  obtain ⟨Y, M, D, hv, hz⟩ := dayCount_surj LeapG (julN y 1 n - 1721060)
  have hg := gregN_dayCount Y M D hv.1 hv.2.1
  have hgj : gregN Y M D = julN y 1 n := by omega
  have hr' : r = (Y, M, D) := by
    simp only [r, JulianToGregorian]
    have hJD : floorDiv (36525 * (y - 1)) 100 + 1721423 + n = julN y 1 n := by
      rw [floorDiv_pos _ _ (by norm_num)]
      unfold julN shiftYM; norm_num; omega
    rw [hJD, ymd_eq]
    have hge : julN y 1 n ≥ 2299161 := by omega
    simp only [hge, if_true]
    rw [show julN y 1 n + (1 + floorDiv (julN y 1 n * 100 - 186721625) 3652425 -
      floorDiv (floorDiv (julN y 1 n * 100 - 186721625) 3652425) 4) + 1524 - 1524 = gregA (julN y 1 n) by
        unfold gregA; ring]
    rw [← hgj]
    exact fromA_gregN Y M D hv
  rw [hr']
  refine ⟨hv, ?_⟩
  dsimp only
  rw [CalendarGregorianToJD_eq, CalendarJulianToJD_eq]
  have e1 := gregN_add Y M D
  have e2 := julN_add y 1 n
  have : gregN Y M 0 + D = julN y 1 0 + n := by omega
  have h : ((gregN Y M 0 + D : Int) : ℝ) = ((julN y 1 0 + n : Int) : ℝ) := by rw [this]
  push_cast at h
  linarith

/-- C17.  Before the reform `JulianToGregorian` returns the Julian calendar date of the day. -/
theorem C17_julianToGregorian_before (y n : Int)
    (hr : dayCount LeapJ y 1 n < dayCount LeapJ 1582 10 5) :
    let r := JulianToGregorian y n
    ValidDate LeapJ r.1 r.2.1 r.2.2 ∧ dayCount LeapJ r.1 r.2.1 r.2.2 = dayCount LeapJ y 1 n := by
  intro r
  have hc : dayCount LeapJ 1582 10 5 = 578103 := by
    have := julN_dayCount 1582 10 5 (by norm_num) (by norm_num)
    have h3 : julN 1582 10 5 = 2299161 := by decide
    omega
  have hN := julN_dayCount y 1 n (by norm_num) (by norm_num)
  obtain ⟨Y, M, D, hv, hz⟩ := dayCount_surj LeapJ (dayCount LeapJ y 1 n)
  have hg := julN_dayCount Y M D hv.1 hv.2.1
  have hgj : julN Y M D = julN y 1 n := by omega
  have hr' : r = (Y, M, D) := by
    simp only [r, JulianToGregorian]
    have hJD : floorDiv (36525 * (y - 1)) 100 + 1721423 + n = julN y 1 n := by
      rw [floorDiv_pos _ _ (by norm_num)]
      unfold julN shiftYM; norm_num; omega
    rw [hJD, ymd_eq]
    have hge : ¬ julN y 1 n ≥ 2299161 := by omega
    simp only [hge, if_false]
    rw [show julN y 1 n + 1524 - 1524 = julN y 1 n by ring, ← hgj]
    exact fromA_julN Y M D hv
  rw [hr']
  exact ⟨hv, hz⟩

/-- C17.  Gregorian to Julian: every valid Gregorian date is converted to the valid Julian date of the
same day. -/
theorem C17_gregorianToJulian (y m d : Int) (hv : ValidDate LeapG y m d) :
    let r := GregorianToJulian y m d
    ValidDate LeapJ r.1 r.2.1 r.2.2 ∧
    CalendarJulianToJD r.1 r.2.1 r.2.2 = CalendarGregorianToJD y m d := by
  intro r
  have hN := gregN_dayCount y m d hv.1 hv.2.1
  obtain ⟨Y, M, D, hv', hz⟩ := dayCount_surj LeapJ (gregN y m d - 1721058)
  have hg := julN_dayCount Y M D hv'.1 hv'.2.1
  have hgj : julN Y M D = gregN y m d := by omega
  have hr' : r = (Y, M, D) := by
    simp only [r, GregorianToJulian]
    rw [ymd_eq]
    have : ∀ y' m' : Int, 3 ≤ m' → m' ≤ 14 → floorDiv (36525 * y') 100 + floorDiv (306001 * (m' + 1)) 10000 + d + 1722519 +
        (2 - floorDiv y' 100 + floorDiv (floorDiv y' 100) 4) - 1524 =
        (36525 * (y' + 4716)) / 100 + (306 * (m' + 1)) / 10 + (2 - y' / 100 + y' / 100 / 4) + d - 1524 := by
      intro y' m' h1 h2
      simp only [floorDiv_pos _ 100 (by norm_num), floorDiv_pos _ 10000 (by norm_num), floorDiv_pos _ 4 (by norm_num)]
      have e1 : 306001 * (m' + 1) / 10000 = (306 * (m' + 1)) / 10 := by interval_cases m' <;> norm_num
      have e2 : (36525 * (y' + 4716)) / 100 = 36525 * y' / 100 + 1722519 := by omega
      rw [e1, e2]; ring
    obtain ⟨h1, h2, -, -⟩ := hv
    have hb : floorDiv (36525 * (if m < 3 then y - 1 else y)) 100 +
        floorDiv (306001 * ((if m < 3 then m + 12 else m) + 1)) 10000 + d + 1722519 +
        (2 - floorDiv (if m < 3 then y - 1 else y) 100 +
          floorDiv (floorDiv (if m < 3 then y - 1 else y) 100) 4) - 1524 = gregN y m d := by
      rw [this _ _ (by split_ifs <;> omega) (by split_ifs <;> omega)]
      unfold gregN shiftYM
      by_cases hm : m < 3
      · have hm' : m = 1 ∨ m = 2 := by omega
        simp only [hm, hm', if_true]
      · have hm' : ¬ (m = 1 ∨ m = 2) := by omega
        simp only [hm, hm', if_false]
    rw [hb, ← hgj]
    exact fromA_julN Y M D hv'
  rw [hr']
  refine ⟨hv', ?_⟩
  dsimp only
  rw [CalendarGregorianToJD_eq, CalendarJulianToJD_eq]
  have e1 := gregN_add y m d
  have e2 := julN_add Y M D
  have : julN Y M 0 + D = gregN y m 0 + d := by omega
  have h : ((julN Y M 0 + D : Int) : ℝ) = ((gregN y m 0 + d : Int) : ℝ) := by rw [this]
  push_cast at h
  linarith

example : JulianToGregorian 1991 219 = (1991, 8, 20) ∧ GregorianToJulian 1991 8 13 = (1991, 7, 31) := by
  decide

/-- The Julian date `(y, m, d)` and the tabular Islamic date `(H, mm, dd)` denote the same day. -/
def SameDay (y m d H mm dd : Int) : Prop :=
  dayCount LeapJ y m d - dayCount LeapJ 622 7 16 = Islamic.dayCount H mm dd

/-- C16 (partial).  `JulianToMoslem` returns the Moslem date of the day when January 1 of the Julian
year `y` falls in the same Moslem year, at least 12 days before its end, except on 30 Dhu'l-Hijja.
Missing from the full statement: the other dates, where it is false (see the violations). -/
theorem C16_same_year_partial (y m d H mm dd p q : Int) (hy : 623 ≤ y) (hj : ValidDate LeapJ y m d)
    (hm : Islamic.Valid H mm dd) (hs : SameDay y m d H mm dd)
    (hjan : SameDay y 1 1 H p q) (hpq : Islamic.Valid H p q) (hq : p = 12 → q ≤ 17)
    (hne : ¬ (mm = 12 ∧ dd = 30)) :
    JulianToMoslem y m d = (H, mm, dd) := by
  unfold SameDay at *
  obtain ⟨j1, j2, j3, j4⟩ := hj
  obtain ⟨P, hP⟩ : ∃ P, P = Islamic.monthsLen H (p - 1).toNat + q := ⟨_, rfl⟩
  have hpne : ¬ (p = 12 ∧ q = 30) := by rintro ⟨rfl, rfl⟩; have := hq rfl; omega
  obtain ⟨sp1, sp2, -, -⟩ := moslem_split H p q hpq hpne
  obtain ⟨s1, s2, s3, s4⟩ := moslem_split H mm dd hm hne
  have hP342 : P ≤ 342 := by
    obtain ⟨-, q1, q2, q3, q4⟩ := hpq
    rw [hP, islamic_monthsLen H p q1 q2]
    unfold Islamic.monthLen at q4
    split_ifs at q4 <;> omega
  have hd1 : Islamic.dayCount H p q = Islamic.dayCount H 1 P := by
    unfold Islamic.dayCount; rw [hP]; simp [Islamic.monthsLen]; ring
  rw [hd1] at hjan
  rw [julianToMoslem_eq y m d H P hy j1 j2 hm.1 (by omega) hP342 hjan]
  have hJJ : P + (monthsLen (LeapJ y) (m - 1).toNat + d) - 1 = Islamic.monthsLen H (mm - 1).toNat + dd := by
    unfold Islamic.dayCount at hs hjan
    unfold dayCount at hs hjan
    simp only [show ((1 : Int) - 1).toNat = 0 by norm_num, monthsLen, Islamic.monthsLen] at hjan
    omega
  dsimp only
  rw [hJJ]
  have n1 : ¬ Islamic.monthsLen H (mm - 1).toNat + dd > (if MoslemLeapYear y then 355 else 354) := by
    split_ifs <;> omega
  have n2 : ¬ Islamic.monthsLen H (mm - 1).toNat + dd = 355 := by omega
  simp only [n1, n2, if_false, s3, s4]

/-- C16 (partial).  When the Julian year `y` runs from Moslem year `H` (January 1, at least 12 days before
its end) into `H + 1`, the dates in `H + 1` are converted correctly provided the Julian year number `y`
happens to be of the same kind, leap or common, in the Moslem cycle as `H`. -/
theorem C16_next_year_partial (y m d H mm dd p q : Int) (hy : 623 ≤ y) (hj : ValidDate LeapJ y m d)
    (hm : Islamic.Valid (H + 1) mm dd) (hs : SameDay y m d (H + 1) mm dd)
    (hjan : SameDay y 1 1 H p q) (hpq : Islamic.Valid H p q) (hq : p = 12 → q ≤ 17)
    (hne : ¬ (mm = 12 ∧ dd = 30)) (hleap : Islamic.Leap y ↔ Islamic.Leap H) :
    JulianToMoslem y m d = (H + 1, mm, dd) := by
  unfold SameDay at *
  obtain ⟨j1, j2, j3, j4⟩ := hj
  obtain ⟨P, hP⟩ : ∃ P, P = Islamic.monthsLen H (p - 1).toNat + q := ⟨_, rfl⟩
  have hpne : ¬ (p = 12 ∧ q = 30) := by rintro ⟨rfl, rfl⟩; have := hq rfl; omega
  obtain ⟨sp1, sp2, -, -⟩ := moslem_split H p q hpq hpne
  obtain ⟨s1, s2, s3, s4⟩ := moslem_split (H + 1) mm dd hm hne
  have hP342 : P ≤ 342 := by
    obtain ⟨-, q1, q2, q3, q4⟩ := hpq
    rw [hP, islamic_monthsLen H p q1 q2]
    unfold Islamic.monthLen at q4
    split_ifs at q4 <;> omega
  have hd1 : Islamic.dayCount H p q = Islamic.dayCount H 1 P := by
    unfold Islamic.dayCount; rw [hP]; simp [Islamic.monthsLen]; ring
  rw [hd1] at hjan
  have hH := hpq.1
  rw [julianToMoslem_eq y m d H P hy j1 j2 hpq.1 (by omega) hP342 hjan]
  have hlen : (if MoslemLeapYear y then (355 : Int) else 354) = Islamic.yearLen H := by
    rw [moslem_leap y (by omega)]
    unfold Islamic.yearLen
    by_cases h : Islamic.Leap H
    · simp [h, hleap.2 h]
    · have : ¬ Islamic.Leap y := fun hc => h (hleap.1 hc)
      simp [h, this]
  have hJJ : P + (monthsLen (LeapJ y) (m - 1).toNat + d) - 1 =
      Islamic.monthsLen (H + 1) (mm - 1).toNat + dd + Islamic.yearLen H := by
    have hyl : Islamic.yearsLen (H + 1 - 1).toNat = Islamic.yearsLen (H - 1).toNat + Islamic.yearLen H := by
      have e1 : (H + 1 - 1).toNat = (H - 1).toNat + 1 := by omega
      have e2 : (((H - 1).toNat : Nat) : Int) + 1 = H := by omega
      rw [e1, Islamic.yearsLen, e2]
    unfold Islamic.dayCount at hs hjan
    unfold dayCount at hs hjan
    simp only [show ((1 : Int) - 1).toNat = 0 by norm_num, monthsLen, Islamic.monthsLen] at hjan
    omega
  dsimp only
  rw [hJJ, hlen]
  have n1 : Islamic.monthsLen (H + 1) (mm - 1).toNat + dd + Islamic.yearLen H > Islamic.yearLen H := by omega
  have n3 : Islamic.monthsLen (H + 1) (mm - 1).toNat + dd + Islamic.yearLen H - Islamic.yearLen H =
    Islamic.monthsLen (H + 1) (mm - 1).toNat + dd := by omega
  have n2 : ¬ Islamic.monthsLen (H + 1) (mm - 1).toNat + dd = 355 := by omega
  simp only [n1, n3, n2, if_true, if_false, s3, s4]

/-- Both partial theorems apply: 1991 August 13 Gregorian = 1991 July 31 Julian = 1412 Safar 2. -/
example : JulianToMoslem 1991 7 31 = (1412, 2, 2) ∧ SameDay 1991 7 31 1412 2 2 ∧ SameDay 1991 1 1 1411 6 27 ∧
    Islamic.Valid 1411 6 27 ∧ Islamic.Valid 1412 2 2 ∧ (Islamic.Leap 1991 ↔ Islamic.Leap 1411) := by
  refine ⟨by decide +kernel, ?_, ?_, by unfold Islamic.Valid; decide, by unfold Islamic.Valid; decide, by decide⟩
  · unfold SameDay
    rw [epoch_dayCount, Islamic.dayCount, islamic_yearsLen' 1412 (by norm_num), dayCount, yearStart_J]
    decide +kernel
  · unfold SameDay
    rw [epoch_dayCount, Islamic.dayCount, islamic_yearsLen' 1411 (by norm_num), dayCount, yearStart_J]
    decide +kernel

/-- C16, violation: Moslem 1421 (2000) and neighbouring dates.  1 Muharram of year 5 is Julian day 153 of
626, June 2, and is converted back to 30 Dhu'l-Hijja of year 4, a date that does not exist. -/
theorem C16_violation : MoslemToJulian 5 1 1 = (626, 153) ∧ DayOfYearToCalendar 153 (LeapYearJulian 626) = (6, 2) ∧
    JulianToMoslem 626 6 2 = (4, 12, 30) ∧ ¬ Islamic.Valid 4 12 30 := by
  refine ⟨by decide, by decide, by decide +kernel, ?_⟩
  unfold Islamic.Valid; decide

/-- C16, violation: every date of the first Moslem year before 623 is converted to a negative year. -/
theorem C16_violation_first_year : MoslemToJulian 1 1 1 = (622, 197) ∧
    DayOfYearToCalendar 197 (LeapYearJulian 622) = (7, 16) ∧ JulianToMoslem 622 7 16 = (-34, -1, 17) := by
  refine ⟨by decide, by decide, by decide +kernel⟩

end Verif.Props
