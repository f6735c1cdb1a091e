import Verif.Lemmas.HebrewGauss

/-! Properties C12, C13 and C78: the Jewish calendar of package jm. -/

namespace Verif.Props

open Verif.Go Verif.Model Verif.Model.Julian Verif.Model.Jm Verif.Spec Verif.Lemmas

/-- Day number of a civil date, Julian before 1583 and Gregorian from 1583, counted from the day of the
reform (Julian 1582 October 5 = Gregorian 1582 October 15). -/
def civilDay (y m d : Int) : Int :=
  if y < 1583 then dayCount LeapJ y m d - dayCount LeapJ 1582 10 5
  else dayCount LeapG y m d - dayCount LeapG 1582 10 15

/-- Weekday of a civil date, 0 = Sunday (the day of the reform was a Friday). -/
def civilWeekday (y m d : Int) : Int := (civilDay y m d + 5) % 7

theorem dayCountJ_mar (y m d k : Int) (hm : (m = 3 ∧ k = 0) ∨ (m = 4 ∧ k = 31) ∨ (m = 9 ∧ k = 184) ∨ (m = 10 ∧ k = 214)) :
    dayCount LeapJ y m d = 365 * y + y / 4 + d + k + 59 := by
  have h := julN_dayCount y m d (by omega) (by omega)
  unfold julN shiftYM at h
  rcases hm with ⟨rfl, rfl⟩ | ⟨rfl, rfl⟩ | ⟨rfl, rfl⟩ | ⟨rfl, rfl⟩ <;> norm_num at h <;> omega

theorem dayCountG_mar (y m d k : Int) (hm : (m = 3 ∧ k = 0) ∨ (m = 4 ∧ k = 31) ∨ (m = 9 ∧ k = 184) ∨ (m = 10 ∧ k = 214)) :
    dayCount LeapG y m d = 365 * y + y / 4 - y / 100 + y / 400 + d + k + 59 := by
  have h := gregN_dayCount y m d (by omega) (by omega)
  unfold gregN shiftYM at h
  have h4 : y / 100 / 4 = y / 400 := by omega
  rcases hm with ⟨rfl, rfl⟩ | ⟨rfl, rfl⟩ | ⟨rfl, rfl⟩ | ⟨rfl, rfl⟩ <;> norm_num at h <;> omega

theorem civilDay_mar (y m d k : Int) (hm : (m = 3 ∧ k = 0) ∨ (m = 4 ∧ k = 31) ∨ (m = 9 ∧ k = 184) ∨ (m = 10 ∧ k = 214)) :
    civilDay y m d = 365 * y + y / 4 - bigS y + d + k - 578044 := by
  have a1 : dayCount LeapJ 1582 10 5 = 578103 := by
    have := julN_dayCount 1582 10 5 (by norm_num) (by norm_num)
    have h3 : julN 1582 10 5 = 2299161 := by decide
    omega
  have a2 : dayCount LeapG 1582 10 15 = 578101 := by
    have := gregN_dayCount 1582 10 15 (by norm_num) (by norm_num)
    have h3 : gregN 1582 10 15 = 2299161 := by decide
    omega
  unfold civilDay
  rw [dayCountJ_mar y m d k hm, dayCountG_mar y m d k hm, bigS_eq, a1, a2]
  have h4 : y / 100 / 4 = y / 400 := by omega
  rw [h4]
  by_cases h : y < 1583
  · have h' : ¬ y ≥ 1583 := by omega
    simp only [h, h', if_true, if_false]; omega
  · have h' : y ≥ 1583 := by omega
    simp only [h, h', if_true, if_false]; omega

/-- C12.  Whatever the rounding of the floating point term (up to a whole day), for every year `≥ 0`
Pesach never falls on a Monday, Wednesday or Friday and the new year date is exactly 163 days later,
hence never on a Sunday, Wednesday or Friday. -/
theorem C12_jewish_weekdays (Qf : Int → ℚ) (y : Int) (hy : 0 ≤ y) (hQ : |Qf y - exactQ y| ≤ 1) :
    let r := JewishCalendar Qf y
    civilWeekday y r.mP r.dP ∈ ([0, 2, 4, 6] : List Int) ∧
    civilDay y r.mNY r.dNY = civilDay y r.mP r.dP + 163 ∧
    civilWeekday y r.mNY r.dNY ∈ ([1, 2, 4, 6] : List Int) := by
  intro r
  obtain ⟨D, hD⟩ : ∃ D, D = bigDOf y (Qf y) := ⟨_, rfl⟩
  have hP : civilDay y r.mP r.dP = 365 * y + y / 4 - bigS y + D - 578044 := by
    simp only [r, JewishCalendar, ← hD]
    split_ifs
    · rw [civilDay_mar y 4 _ 31 (by omega)]; ring
    · rw [civilDay_mar y 3 _ 0 (by omega)]; ring
  have hN : civilDay y r.mNY r.dNY = 365 * y + y / 4 - bigS y + D - 578044 + 163 := by
    simp only [r, JewishCalendar, ← hD]
    split_ifs
    · rw [show (9 : Int) + 1 = 10 by norm_num, civilDay_mar y 10 _ 214 (by omega)]; ring
    · rw [civilDay_mar y 9 _ 184 (by omega)]; ring
  -- lower bound on the floor of Q
  have hq : 0 ≤ ⌊Qf y⌋ + 3 * y + 5 * (y % 4) + 2 - bigS y := by
    obtain ⟨e, he, he1, -⟩ := exactQ_eq y hy
    obtain ⟨h1, -⟩ := abs_le.1 hQ
    have hX : -51840 + 25920 * (-3 * y - 5 * (y % 4)) + 25920 ≤ gaussX y := by
      unfold gaussX
      rcases eq_or_lt_of_le hy with h | h
      · subst h; norm_num
      · omega
    have hXq : (-51840 + 25920 * (-3 * (y : ℚ) - 5 * ((y % 4 : Int) : ℚ)) + 25920 : ℚ) ≤ gaussX y := by
      exact_mod_cast hX
    have : bigS y - 3 * y - 5 * (y % 4) - 2 ≤ ⌊Qf y⌋ := by
      rw [Int.le_floor]; push_cast at *; linarith
    omega
  have hmod : (365 * y + y / 4 - bigS y + D - 578044 + 5) % 7 ∈ ([0, 2, 4, 6] : List Int) := by
    unfold bigDOf at hD
    rw [rem_nonneg_eq (show 0 ≤ 12 * y + 12 by omega), rem_nonneg_eq hy] at hD
    dsimp only at hD
    rw [rem_nonneg_eq hq] at hD
    generalize ⌊Qf y⌋ = iq at *
    generalize (12 * y + 12) % 19 = a at *
    obtain ⟨s, b, hb0, hb, hyb⟩ : ∃ s b : Int, 0 ≤ b ∧ b < 4 ∧ y = 4 * s + b :=
      ⟨y / 4, y % 4, by omega, by omega, by omega⟩
    have e1 : y / 4 = s := by omega
    have e2 : y % 4 = b := by omega
    rw [e1]
    rw [e2] at hD
    rw [hyb] at hD ⊢
    generalize bigS (4 * s + b) = S at *
    clear hP hN hQ hq e1 e2 hyb hy r
    simp only [List.mem_cons, List.not_mem_nil, or_false]
    split_ifs at hD <;> omega
  refine ⟨?_, by rw [hP, hN], ?_⟩
  · unfold civilWeekday; rw [hP]; exact hmod
  · unfold civilWeekday; rw [hN]
    simp only [List.mem_cons, List.not_mem_nil, or_false] at hmod ⊢
    omega

example : JewishCalendar exactQ 1990 = ⟨5750, 4, 10, 9, 20, 12, 354⟩ ∧ civilWeekday 1990 4 10 = 2 := by
  decide +kernel

/-- Rounding error allowed in the theorems on the Jewish calendar: `3·10⁻¹⁰` (float64 stays below
`10⁻¹³` for years of four digits). -/
def Rounded (Qf : Int → ℚ) : Prop := ∀ y, |Qf y - exactQ y| ≤ 3 / 10000000000

/-- C13.  The new year date returned for year `y` is the new year of Jewish year `y + 3761` as defined
by the molad and the four postponements, for every year from 0 to 400,000,000 and for any evaluation of
the floating point term with error at most `3·10⁻¹⁰`. -/
theorem C13_newYear_exact (Qf : Int → ℚ) (hQ : Rounded Qf) (y : Int) (hy : 0 ≤ y) (hy1 : y ≤ 400000000) :
    let r := JewishCalendar Qf y
    civilDay y r.mNY r.dNY - civilDay 2000 9 30 = Hebrew.newYear (y + 3761) - Hebrew.newYear 5761 := by
  intro r
  have h := bigD_newYear y hy hy1 (Qf y) (hQ y)
  obtain ⟨D, hD⟩ : ∃ D, D = bigDOf y (Qf y) := ⟨_, rfl⟩
  have hN : civilDay y r.mNY r.dNY = 365 * y + y / 4 - bigS y + D - 578044 + 163 := by
    simp only [r, JewishCalendar, ← hD]
    split_ifs
    · rw [show (9 : Int) + 1 = 10 by norm_num, civilDay_mar y 10 _ 214 (by omega)]; ring
    · rw [civilDay_mar y 9 _ 184 (by omega)]; ring
  have h2000 : civilDay 2000 9 30 = 152657 := by
    rw [civilDay_mar 2000 9 30 184 (by omega), bigS_eq]; norm_num
  have hn : Hebrew.newYear 5761 = 2103821 := by
    unfold Hebrew.newYear; rw [molad_eq _ (by norm_num)]; decide +kernel
  rw [← hD] at h
  rw [hN, h2000, hn]; omega

/-- Leap year rule used by `JewishCalendar` for the length of civil year `y1`. -/
theorem jewish_leap (y1 : Int) :
    (if (if y1 < 1583 then LeapYearJulian y1 else LeapYearGregorian y1) then (366 : Int) else 365) =
      if y1 < 1583 then (if LeapJ y1 then 366 else 365) else (if LeapG y1 then 366 else 365) := by
  by_cases h : y1 < 1583
  · simp only [h, if_true]
    by_cases hl : LeapJ y1
    · simp only [hl, (leapJ_iff y1).2 hl, if_true]
    · have : LeapYearJulian y1 = false := by
        rw [Bool.eq_false_iff]; exact fun hc => hl ((leapJ_iff y1).1 hc)
      simp [hl, this]
  · simp only [h, if_false]
    by_cases hl : LeapG y1
    · simp only [hl, (leapG_iff y1).2 hl, if_true]
    · have : LeapYearGregorian y1 = false := by
        rw [Bool.eq_false_iff]; exact fun hc => hl ((leapG_iff y1).1 hc)
      simp [hl, this]

/-- C13.  `days` is the length of the Jewish year `y + 3761` (the one beginning at the returned new
year), for every year except 1582. -/
theorem C13_days_exact (Qf : Int → ℚ) (hQ : Rounded Qf) (y : Int) (hy : 0 ≤ y) (hy1 : y < 400000000)
    (hne : y ≠ 1582) :
    (JewishCalendar Qf y).days = Hebrew.newYear (y + 3762) - Hebrew.newYear (y + 3761) := by
  have h0 := bigD_newYear y hy (by omega) (Qf y) (hQ y)
  have h1 := bigD_newYear (y + 1) (by omega) (by omega) (Qf (y + 1)) (hQ (y + 1))
  rw [show y + 1 + 3761 = y + 3762 by ring] at h1
  simp only [JewishCalendar]
  rw [jewish_leap]
  generalize bigDOf y (Qf y) = D0 at *
  generalize bigDOf (y + 1) (Qf (y + 1)) = D1 at *
  rw [← h0, ← h1]
  rw [bigS_eq, bigS_eq]
  by_cases h : y + 1 < 1583
  · have h' : ¬ y ≥ 1583 := by omega
    have h'' : ¬ y + 1 ≥ 1583 := by omega
    simp only [h, h', h'', if_true, if_false]
    by_cases hl : LeapJ (y + 1) <;> simp only [hl, if_true, if_false] <;> unfold LeapJ at hl <;> omega
  · have h' : y ≥ 1583 := by omega
    have h'' : y + 1 ≥ 1583 := by omega
    simp only [h, h', h'', if_true, if_false]
    have e4 : (y + 1) / 100 / 4 = (y + 1) / 400 := by omega
    have e5 : y / 100 / 4 = y / 400 := by omega
    have f4 : (y + 1) / 4 = y / 4 + if 4 ∣ y + 1 then 1 else 0 := by split_ifs <;> omega
    have f100 : (y + 1) / 100 = y / 100 + if 100 ∣ y + 1 then 1 else 0 := by split_ifs <;> omega
    have f400 : (y + 1) / 400 = y / 400 + if 400 ∣ y + 1 then 1 else 0 := by split_ifs <;> omega
    have d1 : 100 ∣ y + 1 → 4 ∣ y + 1 := fun h => Dvd.dvd.trans (by norm_num) h
    have d2 : 400 ∣ y + 1 → 100 ∣ y + 1 := fun h => Dvd.dvd.trans (by norm_num) h
    rw [e4, e5, f4, f100, f400]
    clear h0 h1 e4 e5 f4 f100 f400
    by_cases hl : LeapG (y + 1) <;> simp only [hl, if_true, if_false] <;> unfold LeapG at hl <;>
      by_cases k4 : 4 ∣ y + 1 <;> by_cases k100 : 100 ∣ y + 1 <;> by_cases k400 : 400 ∣ y + 1 <;>
      simp only [k4, k100, k400, if_true, if_false, not_true, not_false_iff, and_true, and_false,
        or_true, or_false, true_implies, false_implies] at * <;> ring

/-- C13.  `days` takes one of the six lengths of a Jewish year: 383-385 days if the year `y + 3761`
is a leap year of the 19 year cycle, otherwise 353-355. -/
theorem C13_days_values (Qf : Int → ℚ) (hQ : Rounded Qf) (y : Int) (hy : 0 ≤ y) (hy1 : y < 400000000)
    (hne : y ≠ 1582) :
    (JewishCalendar Qf y).days ∈
      (if Hebrew.Leap (y + 3761) then [383, 384, 385] else [353, 354, 355] : List Int) := by
  rw [C13_days_exact Qf hQ y hy hy1 hne, show y + 3762 = y + 3761 + 1 by ring]
  exact newYear_len (y + 3761) (by omega)

/-- C13.  `months` is 13 exactly when the returned Jewish year `A = y + 3760` is a leap year. -/
theorem C13_months (Qf : Int → ℚ) (y : Int) (hy : 0 ≤ y) :
    (JewishCalendar Qf y).A = y + 3760 ∧
    ((JewishCalendar Qf y).months = 13 ↔ Hebrew.Leap (y + 3760)) ∧
    ((JewishCalendar Qf y).months = 12 ↔ ¬ Hebrew.Leap (y + 3760)) := by
  simp only [JewishCalendar]
  rw [rem_nonneg_eq (show 0 ≤ y + 3760 by omega)]
  unfold Hebrew.Leap
  simp only [List.mem_cons, List.not_mem_nil, or_false]
  refine ⟨trivial, ?_, ?_⟩ <;> split_ifs <;> omega

example : Rounded exactQ := by intro y; simp; norm_num

/-- C13, violation: `months` describes year `A` but `days` describes year `A + 1`, so the two
disagree; for 1989 the function reports 13 months and 355 days. -/
theorem C13_violation : (JewishCalendar exactQ 1989).months = 13 ∧ (JewishCalendar exactQ 1989).days = 355 := by
  decide +kernel

/-- C13, violation: the year 1582 of the calendar reform.  The reported length is 365 days, the distance
between the two new year dates is 355. -/
theorem C13_violation_1582 : (JewishCalendar exactQ 1582).days = 365 ∧
    Hebrew.newYear 5344 - Hebrew.newYear 5343 = 355 := by
  constructor
  · decide +kernel
  · unfold Hebrew.newYear; rw [molad_eq _ (by norm_num), molad_eq _ (by norm_num)]; decide +kernel

/-- C78 (partial).  From 1583 to 2999 the returned dates are valid Gregorian dates, Pesach in March or
April, the new year in September or October. -/
theorem C78_valid_dates_partial (Qf : Int → ℚ) (hQ : Rounded Qf) (y : Int) (hy : 1583 ≤ y) (hy1 : y ≤ 2999) :
    let r := JewishCalendar Qf y
    ValidDate LeapG y r.mP r.dP ∧ ValidDate LeapG y r.mNY r.dNY := by
  intro r
  obtain ⟨D, hD⟩ : ∃ D, D = bigDOf y (Qf y) := ⟨_, rfl⟩
  have hb : 22 ≤ D ∧ D ≤ 61 := by
    obtain ⟨q, p, hX, hp0, hp1, hfl, -, -⟩ := bigDOf_eq y (by omega) (by omega) (Qf y) (hQ y)
    have h1 : ⌊Qf y⌋ + 22 ≤ D ∧ D ≤ ⌊Qf y⌋ + 24 := by
      rw [hD]; unfold bigDOf; dsimp only; split_ifs <;> omega
    have hS : 0 ≤ q + bigS y ∧ q + bigS y ≤ 37 := by
      rw [bigS_eq]
      have h' : y ≥ 1583 := hy
      simp only [h', if_true]
      unfold gaussX at hX
      have hc : 15 ≤ y / 100 ∧ y / 100 ≤ 29 := by omega
      have hc2 : 100 * (y / 100) ≤ y ∧ y ≤ 100 * (y / 100) + 99 := by omega
      generalize y / 100 = C at *
      obtain ⟨c1, c2⟩ := hc
      have hq1 : 25920 * q ≤ 489829 * y + 434069 - 765433 * ((12 * y + 12) / 19) - 25920 * (y / 4) := by omega
      have hq2 : 489829 * y + 434069 - 765433 * ((12 * y + 12) / 19) - 25920 * (y / 4) < 25920 * q + 25920 := by omega
      have t1 : 12 * y + 12 - 18 ≤ 19 * ((12 * y + 12) / 19) ∧ 19 * ((12 * y + 12) / 19) ≤ 12 * y + 12 := by omega
      have t2 : y - 3 ≤ 4 * (y / 4) ∧ 4 * (y / 4) ≤ y := by omega
      generalize (12 * y + 12) / 19 = t at *
      generalize y / 4 = s at *
      clear hX
      interval_cases C <;> omega
    omega
  obtain ⟨hb1, hb2⟩ := hb
  simp only [r, JewishCalendar, ← hD, ValidDate]
  refine ⟨?_, ?_⟩
  · split_ifs
    · have : monthLen (LeapG y) 4 = 30 := by simp [monthLen]
      rw [this]; omega
    · have : monthLen (LeapG y) 3 = 31 := by simp [monthLen]
      rw [this]; omega
  · split_ifs
    · rw [show (9 : Int) + 1 = 10 by norm_num]
      have : monthLen (LeapG y) 10 = 31 := by simp [monthLen]
      rw [this]; omega
    · have : monthLen (LeapG y) 9 = 30 := by simp [monthLen]
      rw [this]; omega

/-- C78, violation: a new year in August is reported as a non-positive day of September (1581: the
true date is August 29); from 3430 on Pesach may be reported as April 31. -/
theorem C78_violation : (JewishCalendar exactQ 1581).mNY = 9 ∧ (JewishCalendar exactQ 1581).dNY = -2 ∧
    (JewishCalendar exactQ 3430).mP = 4 ∧ (JewishCalendar exactQ 3430).dP = 31 := by
  decide +kernel

end Verif.Props
