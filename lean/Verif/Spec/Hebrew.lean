import Verif.Spec.Calendar
/-
The traditional definition of the Hebrew calendar: mean conjunctions (molad) of exactly
29 d 12 h 793 p and the four postponements (dehiyyot) of the new year.
Days are numbered from the Sunday before the epoch, so that day `n` falls on weekday `n % 7`
(0 = Sunday) and 1 Tishri of year 1, a Monday, is day 1.  A day has 25920 parts (halakim) and begins
at 6 pm.
-/
namespace Verif.Spec.Hebrew

/-- The leap years of the 19 year cycle: years 3, 6, 8, 11, 14, 17 and 19. -/
def Leap (A : Int) : Prop :=
  A % 19 = 0 ∨ A % 19 = 3 ∨ A % 19 = 6 ∨ A % 19 = 8 ∨ A % 19 = 11 ∨ A % 19 = 14 ∨ A % 19 = 17

instance : DecidablePred Leap := fun A =>
  inferInstanceAs (Decidable (A % 19 = 0 ∨ A % 19 = 3 ∨ A % 19 = 6 ∨ A % 19 = 8 ∨ A % 19 = 11 ∨
    A % 19 = 14 ∨ A % 19 = 17))

/-- Months from the epoch to the beginning of year `1 + n`. -/
def monthsBefore : Nat → Int
  | 0 => 0
  | n + 1 => monthsBefore n + if Leap (n + 1) then 13 else 12

/-- The molad of Tishri of year `A`, in parts.  The molad of year 1 is Monday 5 h 204 p. -/
def molad (A : Int) : Int := 25920 + 5 * 1080 + 204 + 765433 * monthsBefore (A - 1).toNat

/-- Day of the new year (1 Tishri) of year `A`. -/
def newYear (A : Int) : Int :=
  let d := molad A / 25920
  let p := molad A % 25920
  -- molad at or after 18 h; Tuesday from 9 h 204 p in a common year; Monday from 15 h 589 p after a
  -- leap year
  let d' := if p ≥ 18 * 1080 ∨ (d % 7 = 2 ∧ p ≥ 9 * 1080 + 204 ∧ ¬ Leap A) ∨
      (d % 7 = 1 ∧ p ≥ 15 * 1080 + 589 ∧ Leap (A - 1)) then d + 1 else d
  -- never Sunday, Wednesday, Friday
  if d' % 7 = 0 ∨ d' % 7 = 3 ∨ d' % 7 = 5 then d' + 1 else d'

end Verif.Spec.Hebrew
