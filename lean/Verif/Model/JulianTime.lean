import Verif.Model.Julian
import Verif.Spec.Calendar
/-
Model of the conversions between Julian days and Go's time.Time (v3/julian/julian.go:131-149).

A time.Time is its instant, an integer number of nanoseconds counted from 2000 January 1, 0h UTC.  The two functions of package
time that are used are parameters (`Lib`); what is assumed of them is `Lib.Ok`: time.Date with day 0 is midnight before the first day
of the month, and Date returns the proleptic Gregorian year and month in which the instant lies.
-/
namespace Verif.Model.JulianTime

open Verif.Go Verif.Model.Julian Verif.Spec

/-- Nanoseconds in a day, `24 * time.Hour`. -/
def dayNs : ℤ := 86400000000000

/-- Functions of package time: `time.Date(y, m, 0, 0, 0, 0, 0, time.UTC)`, and year and month of `Time.Date`. -/
structure Lib where
  date0 : ℤ → ℤ → ℤ
  ym : ℤ → ℤ × ℤ

/-- Midnight at the beginning of a Gregorian day. -/
def midnight (y m d : ℤ) : ℤ := dayNs * (dayCount LeapG y m d - dayCount LeapG 2000 1 1)

/-- The assumed behaviour of package time. -/
structure Lib.Ok (lib : Lib) : Prop where
  date0 : ∀ y m, 1 ≤ m → m ≤ 12 → lib.date0 y m = midnight y m 0
  month : ∀ t, 1 ≤ (lib.ym t).2 ∧ (lib.ym t).2 ≤ 12
  start : ∀ t, midnight (lib.ym t).1 (lib.ym t).2 1 ≤ t
  stop : ∀ t, t < midnight (lib.ym t).1 (lib.ym t).2 (monthLen (LeapG (lib.ym t).1) (lib.ym t).2 + 1)

/-- `JDToTime`.  v3/julian/julian.go:132-137. -/
noncomputable def JDToTime (lib : Lib) (jd : ℝ) : ℤ :=
  let q := jdToCalendarGregorian jd
  lib.date0 q.1 q.2.1 + trunc (q.2.2 * 24 * 3600000000000)

/-- `TimeToJD`.  v3/julian/julian.go:143-149. -/
noncomputable def TimeToJD (lib : Lib) (t : ℤ) : ℝ :=
  let y := (lib.ym t).1
  let m := (lib.ym t).2
  let d := t - lib.date0 y m
  CalendarGregorianToJD y m ((d : ℝ) / (dayNs : ℝ))

end Verif.Model.JulianTime
