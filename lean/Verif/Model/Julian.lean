import Verif.Model.BaseInt
import Verif.Go.Real
/-
Model of package julian (v3/julian/julian.go).
`int` is unbounded; `float64` is ideal (exact real numbers).
-/
namespace Verif.Model.Julian

open Verif.Go Verif.Model

/-- The month shift shared by the two conversions: January and February become
months 13 and 14 of the preceding year.  v3/julian/julian.go:31-35, 48-52. -/
def shiftYM (y m : Int) : Int × Int :=
  if m = 1 ∨ m = 2 then (y - 1, m + 12) else (y, m)

/-- `CalendarGregorianToJD`.  v3/julian/julian.go:30-41. -/
noncomputable def CalendarGregorianToJD (y m : Int) (d : ℝ) : ℝ :=
  let y' := (shiftYM y m).1
  let m' := (shiftYM y m).2
  let a := floorDiv y' 100
  let b := 2 - a + floorDiv a 4
  ((floorDiv (36525 * (y' + 4716)) 100 : Int) : ℝ) +
    ((floorDiv (306 * (m' + 1)) 10 + b : Int) : ℝ) + d - 1524.5

/-- `CalendarJulianToJD`.  v3/julian/julian.go:47-55. -/
noncomputable def CalendarJulianToJD (y m : Int) (d : ℝ) : ℝ :=
  let y' := (shiftYM y m).1
  let m' := (shiftYM y m).2
  ((floorDiv (36525 * (y' + 4716)) 100 : Int) : ℝ) +
    ((floorDiv (306 * (m' + 1)) 10 : Int) : ℝ) + d - 1524.5

/-- `LeapYearJulian`.  v3/julian/julian.go:58-60. -/
def LeapYearJulian (y : Int) : Bool := rem y 4 == 0

/-- `LeapYearGregorian`.  v3/julian/julian.go:63-65. -/
def LeapYearGregorian (y : Int) : Bool :=
  (rem y 4 == 0 && rem y 100 != 0) || rem y 400 == 0

/-- The integer computation shared by `JDToCalendar` and `jdToCalendarGregorian`
once `a` is known: returns year, month, integer day of month.
v3/julian/julian.go:79-97 and 110-128 (identical text). -/
def fromA (a : Int) : Int × Int × Int :=
  let b := a + 1524
  let c := floorDiv (b * 100 - 12210) 36525
  let d := floorDiv (36525 * c) 100
  let e := floorDiv ((b - d) * 10000) 306001
  let day := (b - d) - floorDiv (306001 * e) 10000
  let month := if e = 14 ∨ e = 15 then e - 13 else e - 1
  let year := if month = 1 ∨ month = 2 then c - 4715 else c - 4716
  (year, month, day)

/-- The Gregorian correction `z + 1 + α - α/4`.  v3/julian/julian.go:76-77, 108-109. -/
def gregA (z : Int) : Int :=
  let α := floorDiv (z * 100 - 186721625) 3652425
  z + 1 + α - floorDiv α 4

/-- `JDToCalendar`.  v3/julian/julian.go:71-98. -/
noncomputable def JDToCalendar (jd : ℝ) : Int × Int × ℝ :=
  let (z, f) := modf (jd + 0.5)
  let a := if z ≥ 2299151 then gregA z else z
  let (y, m, d) := fromA a
  (y, m, (d : ℝ) + f)

/-- `jdToCalendarGregorian`.  v3/julian/julian.go:105-129. -/
noncomputable def jdToCalendarGregorian (jd : ℝ) : Int × Int × ℝ :=
  let (z, f) := modf (jd + 0.5)
  let (y, m, d) := fromA (gregA z)
  (y, m, (d : ℝ) + f)

/-- `DayOfWeek`.  v3/julian/julian.go:156-158. -/
noncomputable def DayOfWeek (jd : ℝ) : Int := rem (trunc (jd + 1.5)) 7

/-- `wholeMonths`.  v3/julian/julian.go:199-201. -/
def wholeMonths (m k : Int) : Int :=
  quo (275 * m) 9 - k * quo (m + 9) 12 - 30

/-- `DayOfYear`.  v3/julian/julian.go:176-182 (the argument `y` is unused there). -/
def DayOfYear (_y m d : Int) (leap : Bool) : Int :=
  let k := if leap then 1 else 2
  wholeMonths m k + d

/-- `DayOfYearGregorian`.  v3/julian/julian.go:162-164. -/
def DayOfYearGregorian (y m d : Int) : Int := DayOfYear y m d (LeapYearGregorian y)

/-- `DayOfYearJulian`.  v3/julian/julian.go:168-170. -/
def DayOfYearJulian (y m d : Int) : Int := DayOfYear y m d (LeapYearJulian y)

/-- `DayOfYearToCalendar`.  v3/julian/julian.go:186-197. -/
def DayOfYearToCalendar (n : Int) (leap : Bool) : Int × Int :=
  let k := if leap then 1 else 2
  let m := if n < 32 then 1 else quo (900 * (k + n) + 98 * 275) 27500
  (m, n - wholeMonths m k)

end Verif.Model.Julian
