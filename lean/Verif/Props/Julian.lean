import Verif.Lemmas.JulianReal
import Mathlib.Order.Interval.Finset.Basic
import Mathlib.Data.Int.Interval

/-! Properties C02 – C08 of package julian. -/

namespace Verif.Props

open Verif.Go Verif.Model Verif.Model.Julian Verif.Spec Verif.Lemmas

/-! ### C02, C03: conversion to JD is the day count -/

/-- C02.  For every year, month and (fractional) day the Gregorian conversion is the number of
days elapsed, counted with Gregorian year and month lengths, since 2000 January 1.0 (JD 2451544.5). -/
theorem C02_gregorian_dayCount (y m : Int) (d : ℝ) (h1 : 1 ≤ m) (h2 : m ≤ 12) :
    CalendarGregorianToJD y m d =
      ((dayCount LeapG y m 1 - dayCount LeapG 2000 1 1 : Int) : ℝ) + (d - 1) + 2451544.5 := by
  rw [CalendarGregorianToJD_eq]
  have h := gregN_dayCount y m 1 h1 h2
  rw [gregN_add] at h
  have h0 : dayCount LeapG 2000 1 1 = 730485 := by
    rw [dayCount, yearStart_G]; simp [monthsLen]
  have hg : ((gregN y m 0 : Int) : ℝ) = ((dayCount LeapG y m 1 : Int) : ℝ) + 1721059 := by
    have : gregN y m 0 = dayCount LeapG y m 1 + 1721059 := by omega
    exact_mod_cast this
  rw [h0, hg]; push_cast; ring

example : CalendarGregorianToJD 2000 1 1.5 = 2451545 := by
  rw [C02_gregorian_dayCount 2000 1 1.5 (by norm_num) (by norm_num)]; norm_num
example : CalendarGregorianToJD 1957 10 4.81 = 2436116.31 := by
  rw [CalendarGregorianToJD_eq, show gregN 1957 10 0 = 2436112 by decide]; norm_num
example : CalendarGregorianToJD (-400) 3 1 - CalendarGregorianToJD (-400) 2 29 = 1 := by
  rw [CalendarGregorianToJD_eq, CalendarGregorianToJD_eq, show gregN (-400) 3 0 = 1575022 by decide,
    show gregN (-400) 2 0 = 1574993 by decide]; norm_num

/-- C03.  For every year, month and (fractional) day the Julian calendar conversion is the number
of days elapsed, counted with Julian year and month lengths, since -4712 January 1.0 (JD -0.5). -/
theorem C03_julian_dayCount (y m : Int) (d : ℝ) (h1 : 1 ≤ m) (h2 : m ≤ 12) :
    CalendarJulianToJD y m d =
      ((dayCount LeapJ y m 1 - dayCount LeapJ (-4712) 1 1 : Int) : ℝ) + (d - 1) - 0.5 := by
  rw [CalendarJulianToJD_eq]
  have h := julN_dayCount y m 1 h1 h2
  rw [julN_add] at h
  have h0 : dayCount LeapJ (-4712) 1 1 = -1721058 := by
    rw [dayCount, yearStart_J]; simp [monthsLen]
  have hg : ((julN y m 0 : Int) : ℝ) = ((dayCount LeapJ y m 1 : Int) : ℝ) + 1721057 := by
    have : julN y m 0 = dayCount LeapJ y m 1 + 1721057 := by omega
    exact_mod_cast this
  rw [h0, hg]; push_cast; ring

example : CalendarJulianToJD 333 1 27.5 = 1842713 := by
  rw [CalendarJulianToJD_eq, show julN 333 1 0 = 1842686 by decide]; norm_num

/-- C03.  The calendars meet at the reform: Julian 1582 October 5 is Gregorian 1582 October 15. -/
theorem C03_reform (f : ℝ) :
    CalendarJulianToJD 1582 10 (5 + f) = CalendarGregorianToJD 1582 10 (15 + f) := by
  rw [CalendarJulianToJD_eq, CalendarGregorianToJD_eq, show julN 1582 10 0 = 2299156 by decide,
    show gregN 1582 10 0 = 2299146 by decide]; push_cast; ring

/-! ### C04: Gregorian round trips -/

/-- `(y, m, d)` is not before 1582 October 15.0, lexicographically. -/
def FromReform (y m : Int) (d : ℝ) : Prop :=
  1582 < y ∨ (y = 1582 ∧ (10 < m ∨ (m = 10 ∧ 15 ≤ d)))

/-- C04.  Date → JD → date is the identity on every Gregorian instant from the reform on. -/
theorem C04_date_jd_date (y m : Int) (d : ℝ) (hv : ValidInstant LeapG y m d) (hr : FromReform y m d) :
    JDToCalendar (CalendarGregorianToJD y m d) = (y, m, d) := by
  apply jdToCal_greg y m d hv
  obtain ⟨h1, h2, h3, -⟩ := hv
  rw [CalendarGregorianToJD_eq]
  have h := gregN_dayCount y m 1 h1 h2
  rw [gregN_add, dayCount, yearStart_G, monthsLen_eq _ m h1 h2] at h
  rcases hr with hy | ⟨rfl, hm | ⟨rfl, hd⟩⟩
  · have : (2299238 : Int) - 1 ≤ gregN y m 0 := by
      by_cases hl : LeapG y <;> simp only [hl, if_true, if_false] at h <;> split_ifs at h <;> omega
    have : ((2299238 : Int) : ℝ) - 1 ≤ ((gregN y m 0 : Int) : ℝ) := by exact_mod_cast this
    push_cast at this; linarith
  · have : (2299178 : Int) - 1 ≤ gregN 1582 m 0 := by
      have hl : ¬ LeapG 1582 := by decide
      simp only [hl, if_false] at h; split_ifs at h <;> omega
    have : ((2299178 : Int) : ℝ) - 1 ≤ ((gregN 1582 m 0 : Int) : ℝ) := by exact_mod_cast this
    push_cast at this; linarith
  · have : gregN 1582 10 0 = 2299146 := by decide
    rw [this]; push_cast; linarith

example : ValidInstant LeapG 1582 10 15.25 ∧ FromReform 1582 10 15.25 ∧
    ValidInstant LeapG 2000 2 29.999 ∧ FromReform 2000 2 29.999 := by
  have h1 : monthLen (LeapG 1582) 10 = 31 := by decide
  have h2 : monthLen (LeapG 2000) 2 = 29 := by decide
  unfold ValidInstant FromReform
  rw [h1, h2]
  norm_num

/-- C04.  JD → date → JD is the identity from the reform on, and the date produced is valid. -/
theorem C04_jd_date_jd (jd : ℝ) (h : 2299160.5 ≤ jd) :
    ∃ y m d, JDToCalendar jd = (y, m, d) ∧ ValidInstant LeapG y m d ∧ CalendarGregorianToJD y m d = jd := by
  obtain ⟨y, m, d, hv, rfl⟩ := greg_surj jd
  exact ⟨y, m, d, jdToCal_greg y m d hv (by linarith), hv, rfl⟩

/-- C04, the function behind `JDToTime`: the proleptic Gregorian inverse works from JD -0.5 on. -/
theorem C04_jd_proleptic (jd : ℝ) (h : -0.5 ≤ jd) :
    ∃ y m d, jdToCalendarGregorian jd = (y, m, d) ∧ ValidInstant LeapG y m d ∧
      CalendarGregorianToJD y m d = jd := by
  obtain ⟨y, m, d, hv, rfl⟩ := greg_surj jd
  exact ⟨y, m, d, jdToCal_greg_core y m d hv (by linarith), hv, rfl⟩

/-! ### C05: Julian round trip, true only up to 1582 September 24 -/

/-- C05 (partial).  Julian date → JD → date is the identity for JD -0.5 ≤ jd < 2299150.5, that is
until the end of 1582 September 24.  Missing from the full statement (which extends to
1582 October 4, JD < 2299160.5): the ten days September 25 – October 4, for which the code is wrong,
see `C05_violation`. -/
theorem C05_julian_roundtrip_partial (y m : Int) (d : ℝ) (hv : ValidInstant LeapJ y m d)
    (h0 : -0.5 ≤ CalendarJulianToJD y m d) (h1 : CalendarJulianToJD y m d < 2299150.5) :
    JDToCalendar (CalendarJulianToJD y m d) = (y, m, d) :=
  jdToCal_jul y m d hv h0 h1

/-- C05 (partial), the other direction: for -0.5 ≤ jd < 2299150.5 the date produced is a valid
Julian instant whose JD is `jd`. -/
theorem C05_jd_date_jd_partial (jd : ℝ) (h0 : -0.5 ≤ jd) (h1 : jd < 2299150.5) :
    ∃ y m d, JDToCalendar jd = (y, m, d) ∧ ValidInstant LeapJ y m d ∧ CalendarJulianToJD y m d = jd := by
  obtain ⟨y, m, d, hv, rfl⟩ := jul_surj jd
  exact ⟨y, m, d, jdToCal_jul y m d hv h0 h1, hv, rfl⟩

example : ValidInstant LeapJ 1582 9 24.75 ∧ -0.5 ≤ CalendarJulianToJD 1582 9 24.75 ∧
    CalendarJulianToJD 1582 9 24.75 < 2299150.5 := by
  have h1 : monthLen (LeapJ 1582) 9 = 30 := by decide
  unfold ValidInstant
  rw [h1, CalendarJulianToJD_eq, show julN 1582 9 0 = 2299126 by decide]
  norm_num

/-- C05 violated.  On each of the last ten days of the Julian calendar (1582 September 25 to
October 4) `JDToCalendar` returns a date ten days off: a Gregorian date although the Gregorian
calendar was not yet in use.  In particular the last Julian date, 1582 October 4, comes back as
October 14, a day that never existed in the civil calendar. -/
theorem C05_violation (jd : ℝ) (h0 : 2299150.5 ≤ jd) (_h1 : jd < 2299160.5) :
    (∃ y m d, ValidInstant LeapJ y m d ∧ CalendarJulianToJD y m d = jd ∧
      JDToCalendar jd ≠ (y, m, d)) := by
  obtain ⟨y, m, d, hv, hj⟩ := jul_surj jd
  refine ⟨y, m, d, hv, hj, ?_⟩
  obtain ⟨y', m', d', hv', hg⟩ := greg_surj jd
  rw [← hg, jdToCal_greg y' m' d' hv' (by linarith)]
  intro he
  simp only [Prod.mk.injEq] at he
  obtain ⟨rfl, rfl, rfl⟩ := he
  have e1 := C02_gregorian_dayCount y' m' d' hv'.1 hv'.2.1
  rw [CalendarGregorianToJD_eq] at hg
  rw [CalendarJulianToJD_eq] at hj
  have hN : gregN y' m' 0 = julN y' m' 0 := by
    have : ((gregN y' m' 0 : Int) : ℝ) = julN y' m' 0 := by linarith
    exact_mod_cast this
  -- the two day numbers agree only around the third century
  have hN1 : (2299118 : Int) ≤ gregN y' m' 0 := by
    have : ((2299118 : Int) : ℝ) ≤ ((gregN y' m' 0 : Int) : ℝ) := by
      have h3 := hv'.2.2.2
      have h4 : (monthLen (LeapG y') m' : ℝ) ≤ 31 := by exact_mod_cast (monthLen_bounds (LeapG y') m').2
      push_cast; linarith
    exact_mod_cast this
  unfold gregN at hN hN1
  unfold julN at hN
  dsimp only at hN hN1
  rw [y36525] at hN1
  generalize (shiftYM y' m').1 = Y at *
  have hm : (shiftYM y' m').2 ≤ 14 := by
    have := hv'.2.1
    unfold shiftYM; split
    · next h => rcases h with h | h <;> simp [h]
    · simp; omega
  omega

theorem C05_violation_oct4 : JDToCalendar (CalendarJulianToJD 1582 10 4) = (1582, 10, 14) := by
  have h : CalendarJulianToJD 1582 10 4 = CalendarGregorianToJD 1582 10 14 := by
    have := C03_reform (-1); norm_num at this; exact this
  rw [h]
  have hl : monthLen (LeapG 1582) 10 = 31 := by decide
  refine jdToCal_greg 1582 10 14 ⟨by norm_num, by norm_num, by norm_num, by rw [hl]; norm_num⟩ ?_
  rw [CalendarGregorianToJD_eq, show gregN 1582 10 0 = 2299146 by decide]; norm_num

/-! ### C06: day of the week -/

/-- C06.  Over the whole civil day number `n` (0h to 24h UT) the weekday is `n + 1` modulo 7; it is
in 0..6. -/
theorem C06_dayOfWeek_constant (n : Int) (hn : -1 ≤ n) (jd : ℝ) (h0 : (n : ℝ) - 0.5 ≤ jd)
    (h1 : jd < (n : ℝ) + 0.5) : DayOfWeek jd = (n + 1) % 7 := by
  have hn' : (-1 : ℝ) ≤ n := by exact_mod_cast hn
  have hf : ⌊jd + 1.5⌋ = n + 1 := by
    rw [Int.floor_eq_iff]; push_cast; constructor <;> linarith
  unfold DayOfWeek
  rw [trunc_nonneg (by linarith), hf, rem_nonneg_eq (by omega)]

/-- C06.  The weekday is in the documented range and advances by one every day. -/
theorem C06_dayOfWeek_step (jd : ℝ) (h : -1.5 ≤ jd) :
    0 ≤ DayOfWeek jd ∧ DayOfWeek jd ≤ 6 ∧ DayOfWeek (jd + 1) = (DayOfWeek jd + 1) % 7 := by
  obtain ⟨n, hn⟩ : ∃ n : Int, n = ⌊jd + 0.5⌋ := ⟨_, rfl⟩
  have h0 : (n : ℝ) ≤ jd + 0.5 := hn ▸ Int.floor_le _
  have h1 : jd + 0.5 < (n : ℝ) + 1 := hn ▸ Int.lt_floor_add_one _
  have hn1 : -1 ≤ n := by rw [hn]; exact Int.le_floor.2 (by push_cast; linarith)
  rw [C06_dayOfWeek_constant n hn1 jd (by linarith) (by linarith),
    C06_dayOfWeek_constant (n + 1) (by omega) (jd + 1) (by push_cast; linarith) (by push_cast; linarith)]
  omega

/-- C06, anchor: 2000 January 1 was a Saturday, at any time of that day. -/
theorem C06_dayOfWeek_anchor (f : ℝ) (h0 : 0 ≤ f) (h1 : f < 1) :
    DayOfWeek (CalendarGregorianToJD 2000 1 (1 + f)) = 6 := by
  rw [C06_dayOfWeek_constant 2451545 (by norm_num)]
  · norm_num
  all_goals
    rw [CalendarGregorianToJD_eq, show gregN 2000 1 0 = 2451544 by decide]; push_cast; linarith

/-- C06, limit of validity: before JD -1.5 the documented range 0..6 is violated. -/
theorem C06_violation_negative : DayOfWeek (-3) = -1 := by
  have : ⌈(-3 : ℝ) + 1.5⌉ = -1 := by rw [Int.ceil_eq_iff]; norm_num
  unfold DayOfWeek trunc
  rw [if_pos (by norm_num), this]; decide

/-! ### C07: leap years -/

/-- C07.  Gregorian: the leap year predicate is exactly "the year has 366 days", measured as the JD
difference of successive January firsts. -/
theorem C07_leapGregorian_length (y : Int) :
    CalendarGregorianToJD (y + 1) 1 1 - CalendarGregorianToJD y 1 1 =
      if LeapYearGregorian y = true then 366 else 365 := by
  rw [C02_gregorian_dayCount _ _ _ (by norm_num) (by norm_num),
    C02_gregorian_dayCount _ _ _ (by norm_num) (by norm_num)]
  have h1 : dayCount LeapG (y + 1) 1 1 = dayCount LeapG y 1 1 + yearLen LeapG y := by
    unfold dayCount; rw [yearStart_succ]; simp [monthsLen]
  rw [h1]
  by_cases hl : LeapG y
  · simp [(leapG_iff y).2 hl, yearLen, hl]
  · have : ¬ LeapYearGregorian y = true := fun h => hl ((leapG_iff y).1 h)
    simp [this, yearLen, hl]

/-- C07.  Julian calendar. -/
theorem C07_leapJulian_length (y : Int) :
    CalendarJulianToJD (y + 1) 1 1 - CalendarJulianToJD y 1 1 =
      if LeapYearJulian y = true then 366 else 365 := by
  rw [C03_julian_dayCount _ _ _ (by norm_num) (by norm_num),
    C03_julian_dayCount _ _ _ (by norm_num) (by norm_num)]
  have h1 : dayCount LeapJ (y + 1) 1 1 = dayCount LeapJ y 1 1 + yearLen LeapJ y := by
    unfold dayCount; rw [yearStart_succ]; simp [monthsLen]
  rw [h1]
  by_cases hl : LeapJ y
  · simp [(leapJ_iff y).2 hl, yearLen, hl]
  · have : ¬ LeapYearJulian y = true := fun h => hl ((leapJ_iff y).1 h)
    simp [this, yearLen, hl]

/-- C07.  Any 400 consecutive years contain exactly 97 Gregorian leap years, any 4 consecutive years
exactly one Julian leap year. -/
theorem C07_leap_density (y : Int) :
    countYears LeapYearGregorian y 400 = 97 ∧ countYears LeapYearJulian y 4 = 1 := by
  constructor
  · have h1 := countYears_yearsLen LeapG _ leapG_iff y 400
    rw [yearsLen_eq, yearStart_G, yearStart_G] at h1
    push_cast at h1; omega
  · have h1 := countYears_yearsLen LeapJ _ leapJ_iff y 4
    rw [yearsLen_eq, yearStart_J, yearStart_J] at h1
    push_cast at h1; omega

example : LeapYearGregorian (-400) = true ∧ LeapYearGregorian (-100) = false ∧ LeapYearJulian (-5) = false := by
  decide

/-! ### C08: day of the year -/

/-- C08.  Gregorian day of the year is the number of days since "January 0". -/
theorem C08_dayOfYearGregorian (y m d : Int) (h1 : 1 ≤ m) (h2 : m ≤ 12) :
    (DayOfYearGregorian y m d : ℝ) = CalendarGregorianToJD y m d - CalendarGregorianToJD y 1 0 := by
  rw [C02_gregorian_dayCount _ _ _ h1 h2, C02_gregorian_dayCount _ _ _ (by norm_num) (by norm_num)]
  have key : DayOfYearGregorian y m d = dayCount LeapG y m 1 - dayCount LeapG y 1 1 + d := by
    unfold dayCount DayOfYearGregorian DayOfYear wholeMonths
    rw [monthsLen_eq _ m h1 h2, quo_nonneg_eq (by omega), quo_nonneg_eq (by omega)]
    by_cases hl : LeapG y
    · have hb := (leapG_iff y).2 hl
      simp only [hb, hl, if_true]
      have : m = 1 ∨ m = 2 ∨ m = 3 ∨ m = 4 ∨ m = 5 ∨ m = 6 ∨ m = 7 ∨ m = 8 ∨ m = 9 ∨ m = 10 ∨ m = 11 ∨ m = 12 := by
        omega
      rcases this with rfl | rfl | rfl | rfl | rfl | rfl | rfl | rfl | rfl | rfl | rfl | rfl <;>
        norm_num [monthsLen]
    · have hb : LeapYearGregorian y = false := by
        rw [Bool.eq_false_iff]; exact fun h => hl ((leapG_iff y).1 h)
      simp only [hb, hl, if_false]
      have : m = 1 ∨ m = 2 ∨ m = 3 ∨ m = 4 ∨ m = 5 ∨ m = 6 ∨ m = 7 ∨ m = 8 ∨ m = 9 ∨ m = 10 ∨ m = 11 ∨ m = 12 := by
        omega
      rcases this with rfl | rfl | rfl | rfl | rfl | rfl | rfl | rfl | rfl | rfl | rfl | rfl <;>
        norm_num [monthsLen]
  rw [key]; push_cast; ring

/-- C08.  Julian day of the year is the number of days since "January 0". -/
theorem C08_dayOfYearJulian (y m d : Int) (h1 : 1 ≤ m) (h2 : m ≤ 12) :
    (DayOfYearJulian y m d : ℝ) = CalendarJulianToJD y m d - CalendarJulianToJD y 1 0 := by
  rw [C03_julian_dayCount _ _ _ h1 h2, C03_julian_dayCount _ _ _ (by norm_num) (by norm_num)]
  have key : DayOfYearJulian y m d = dayCount LeapJ y m 1 - dayCount LeapJ y 1 1 + d := by
    unfold dayCount DayOfYearJulian DayOfYear wholeMonths
    rw [monthsLen_eq _ m h1 h2, quo_nonneg_eq (by omega), quo_nonneg_eq (by omega)]
    by_cases hl : LeapJ y
    · have hb := (leapJ_iff y).2 hl
      simp only [hb, hl, if_true]
      have : m = 1 ∨ m = 2 ∨ m = 3 ∨ m = 4 ∨ m = 5 ∨ m = 6 ∨ m = 7 ∨ m = 8 ∨ m = 9 ∨ m = 10 ∨ m = 11 ∨ m = 12 := by
        omega
      rcases this with rfl | rfl | rfl | rfl | rfl | rfl | rfl | rfl | rfl | rfl | rfl | rfl <;>
        norm_num [monthsLen]
    · have hb : LeapYearJulian y = false := by
        rw [Bool.eq_false_iff]; exact fun h => hl ((leapJ_iff y).1 h)
      simp only [hb, hl, if_false]
      have : m = 1 ∨ m = 2 ∨ m = 3 ∨ m = 4 ∨ m = 5 ∨ m = 6 ∨ m = 7 ∨ m = 8 ∨ m = 9 ∨ m = 10 ∨ m = 11 ∨ m = 12 := by
        omega
      rcases this with rfl | rfl | rfl | rfl | rfl | rfl | rfl | rfl | rfl | rfl | rfl | rfl <;>
        norm_num [monthsLen]
  rw [key]; push_cast; ring

/-- C08.  `DayOfYearToCalendar` undoes `DayOfYear` on every date of a year. -/
theorem C08_calendar_of_dayOfYear (y m d : Int) (leap : Bool)
    (h1 : 1 ≤ m) (h2 : m ≤ 12) (h3 : 1 ≤ d) (h4 : d ≤ monthLen (leap = true) m) :
    DayOfYearToCalendar (DayOfYear y m d leap) leap = (m, d) := by
  have key : ∀ leap : Bool, ∀ m ∈ Finset.Icc (1 : Int) 12, ∀ d ∈ Finset.Icc (1 : Int) 31,
      d ≤ monthLen (leap = true) m → DayOfYearToCalendar (DayOfYear 0 m d leap) leap = (m, d) := by
    decide +kernel
  have hd := (monthLen_bounds (leap = true) m).2
  exact key leap m (Finset.mem_Icc.2 ⟨h1, h2⟩) d (Finset.mem_Icc.2 ⟨h3, by omega⟩) h4

/-- C08.  `DayOfYear` undoes `DayOfYearToCalendar` on every day number, and the date is valid. -/
theorem C08_dayOfYear_of_calendar (y n : Int) (leap : Bool) (h1 : 1 ≤ n)
    (h2 : n ≤ if leap then 366 else 365) :
    let md := DayOfYearToCalendar n leap
    DayOfYear y md.1 md.2 leap = n ∧ 1 ≤ md.1 ∧ md.1 ≤ 12 ∧ 1 ≤ md.2 ∧
      md.2 ≤ monthLen (leap = true) md.1 := by
  have key : ∀ leap : Bool, ∀ n ∈ Finset.Icc (1 : Int) 366, (n ≤ if leap then 366 else 365) →
      let md := DayOfYearToCalendar n leap
      DayOfYear 0 md.1 md.2 leap = n ∧ 1 ≤ md.1 ∧ md.1 ≤ 12 ∧ 1 ≤ md.2 ∧
      md.2 ≤ monthLen (leap = true) md.1 := by
    decide +kernel
  exact key leap n (Finset.mem_Icc.2 ⟨h1, by split at h2 <;> omega⟩) h2

example : DayOfYearGregorian 1978 11 14 = 318 ∧ DayOfYearToCalendar 113 true = (4, 22) := by decide

end Verif.Props
