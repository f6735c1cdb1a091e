import Mathlib.Data.Real.Basic
/-
Independent specification of the Julian and Gregorian calendars: a day count
built from year lengths and month lengths only.
-/
namespace Verif.Spec

/-- Leap years of the Julian calendar. -/
def LeapJ (y : Int) : Prop := 4 ∣ y

/-- Leap years of the Gregorian calendar. -/
def LeapG (y : Int) : Prop := (4 ∣ y ∧ ¬ 100 ∣ y) ∨ 400 ∣ y

instance : DecidablePred LeapJ := fun y => inferInstanceAs (Decidable (4 ∣ y))
instance : DecidablePred LeapG := fun y =>
  inferInstanceAs (Decidable ((4 ∣ y ∧ ¬ 100 ∣ y) ∨ 400 ∣ y))

/-- Number of days of month `m` (1..12). -/
def monthLen (leap : Prop) [Decidable leap] (m : Int) : Int :=
  if m = 2 then (if leap then 29 else 28)
  else if m = 4 ∨ m = 6 ∨ m = 9 ∨ m = 11 then 30
  else 31

/-- Number of days in the `n` first months of a year. -/
def monthsLen (leap : Prop) [Decidable leap] : Nat → Int
  | 0 => 0
  | n + 1 => monthsLen leap n + monthLen leap (n + 1)

section
variable (leap : Int → Prop) [DecidablePred leap]

/-- Number of days of year `y`. -/
def yearLen (y : Int) : Int := if leap y then 366 else 365

/-- Days of the years `s, s+1, …, s+n-1`. -/
def yearsLen (s : Int) : Nat → Int
  | 0 => 0
  | n + 1 => yearsLen s n + yearLen leap (s + n)

/-- Days from January 1 of year 0 to January 1 of year `y` (negative before). -/
def yearStart (y : Int) : Int :=
  if 0 ≤ y then yearsLen leap 0 y.toNat else - yearsLen leap y (-y).toNat

/-- Days from January 1 of year 0 to day `d` of month `m` of year `y`. -/
def dayCount (y m d : Int) : Int :=
  yearStart leap y + monthsLen (leap y) (m - 1).toNat + (d - 1)

/-- `(y, m, d)` is a date of the calendar. -/
def ValidDate (y m d : Int) : Prop :=
  1 ≤ m ∧ m ≤ 12 ∧ 1 ≤ d ∧ d ≤ monthLen (leap y) m

/-- `(y, m, d)` with a fractional day is an instant of the calendar. -/
def ValidInstant (y m : Int) (d : ℝ) : Prop :=
  1 ≤ m ∧ m ≤ 12 ∧ 1 ≤ d ∧ d < (monthLen (leap y) m : ℝ) + 1

end

/-- Number of years among `y, …, y+n-1` satisfying a predicate. -/
def countYears (p : Int → Bool) (y : Int) : Nat → Int
  | 0 => 0
  | n + 1 => countYears p y n + if p (y + n) then 1 else 0

end Verif.Spec
