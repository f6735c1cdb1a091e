import Verif.Spec.Calendar
/-
The ecclesiastical definition of Easter: the first Sunday strictly after the
Paschal full moon.  Sundays are defined by the day count of the calendar
specification (2000 January 2, Gregorian, was a Sunday).
-/
namespace Verif.Spec

/-- Clavius' Gregorian epact of year `y`, from the golden number, the solar and
the lunar correction (the form of Knuth, TAOCP 1.3.2, exercise 14). -/
def epactG (y : Int) : Int :=
  let G := y % 19 + 1
  let C := y / 100 + 1
  let X := 3 * C / 4 - 12
  let Z := (8 * C + 5) / 25 - 5
  (11 * G + 20 + Z - X) % 30

/-- Epact after the two exceptions of the calendar (epact 24, and epact 25 with
golden number above 11, count as the next one). -/
def epactG' (y : Int) : Int :=
  if epactG y = 24 ∨ (epactG y = 25 ∧ y % 19 + 1 > 11) then epactG y + 1 else epactG y

/-- Paschal full moon as a day number of March, Gregorian calendar. -/
def fullMoonG (y : Int) : Int :=
  if 44 - epactG' y < 21 then 44 - epactG' y + 30 else 44 - epactG' y

/-- Paschal full moon as a day number of March, Julian calendar: the medieval
table indexed by the golden number. -/
def fullMoonJ (y : Int) : Int :=
  match (y % 19).toNat with
  | 0 => 36 | 1 => 25 | 2 => 44 | 3 => 33 | 4 => 22 | 5 => 41 | 6 => 30 | 7 => 49 | 8 => 38
  | 9 => 27 | 10 => 46 | 11 => 35 | 12 => 24 | 13 => 43 | 14 => 32 | 15 => 21 | 16 => 40
  | 17 => 29 | _ => 48

/-- Day `n` counted from March 1 = 1 is a Sunday in the Gregorian calendar. -/
def SundayG (y n : Int) : Prop := 7 ∣ dayCount LeapG y 3 n - dayCount LeapG 2000 1 2

/-- Day `n` counted from March 1 = 1 is a Sunday in the Julian calendar
(Julian 1582 October 5 is Gregorian 1582 October 15, a Friday; October 7 a Sunday). -/
def SundayJ (y n : Int) : Prop := 7 ∣ dayCount LeapJ y 3 n - dayCount LeapJ 1582 10 7

/-- Day `n` of March is the first Sunday strictly after full moon day `fm`. -/
def FirstSundayAfter (sunday : Int → Prop) (fm n : Int) : Prop :=
  fm < n ∧ sunday n ∧ ∀ k, fm < k → k < n → ¬ sunday k

/-- The day of March denoted by a month (3 or 4) and a day. -/
def marchDay (md : Int × Int) : Int := md.2 + 31 * (md.1 - 3)

end Verif.Spec
