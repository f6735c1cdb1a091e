import Verif.Model.JulianTime
import Verif.Go.Float64
/-
The calendar functions of package julian in float64: every operation on floats is followed by rounding.  Integers are unbounded; no value here is near
the limits of int or of float64.
-/
namespace Verif.Model.Julian64

open Verif.Go Verif.Go.F64 Verif.Model Verif.Model.Julian Verif.Model.JulianTime

/-- `CalendarGregorianToJD`.  v3/julian/julian.go:30-41. -/
noncomputable def CalendarGregorianToJD (y m : Int) (d : ℝ) : ℝ :=
  let y' := (shiftYM y m).1
  let m' := (shiftYM y m).2
  let a := floorDiv y' 100
  let b := 2 - a + floorDiv a 4
  fl (fl (fl (fl (floorDiv (36525 * (y' + 4716)) 100 : Int) + fl (floorDiv (306 * (m' + 1)) 10 + b : Int)) + d) - 1524.5)

/-- `CalendarJulianToJD`.  v3/julian/julian.go:47-55. -/
noncomputable def CalendarJulianToJD (y m : Int) (d : ℝ) : ℝ :=
  let y' := (shiftYM y m).1
  let m' := (shiftYM y m).2
  fl (fl (fl (fl (floorDiv (36525 * (y' + 4716)) 100 : Int) + fl (floorDiv (306 * (m' + 1)) 10 : Int)) + d) - 1524.5)

/-- `JDToCalendar`.  v3/julian/julian.go:71-98. -/
noncomputable def JDToCalendar (jd : ℝ) : Int × Int × ℝ :=
  let (z, f) := modf (fl (jd + 0.5))
  let a := if z ≥ 2299151 then gregA z else z
  let (y, m, d) := fromA a
  (y, m, fl (fl d + f))

/-- `jdToCalendarGregorian`.  v3/julian/julian.go:105-129. -/
noncomputable def jdToCalendarGregorian (jd : ℝ) : Int × Int × ℝ :=
  let (z, f) := modf (fl (jd + 0.5))
  let (y, m, d) := fromA (gregA z)
  (y, m, fl (fl d + f))

/-- `DayOfWeek`.  v3/julian/julian.go:156-158. -/
noncomputable def DayOfWeek (jd : ℝ) : Int := rem (trunc (fl (jd + 1.5))) 7

/-- `JDToTime`.  v3/julian/julian.go:132-137. -/
noncomputable def JDToTime (lib : Lib) (jd : ℝ) : ℤ :=
  let q := jdToCalendarGregorian jd
  lib.date0 q.1 q.2.1 + trunc (fl (fl (q.2.2 * 24) * 3600000000000))

/-- `TimeToJD`.  v3/julian/julian.go:143-149. -/
noncomputable def TimeToJD (lib : Lib) (t : ℤ) : ℝ :=
  let y := (lib.ym t).1
  let m := (lib.ym t).2
  let d := t - lib.date0 y m
  CalendarGregorianToJD y m (fl (fl d / (dayNs : ℝ)))

end Verif.Model.Julian64
