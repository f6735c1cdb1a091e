import Verif.Spec.Calendar
/-
The tabular Islamic calendar: years of 12 months of alternately 30 and 29 days, the last month having
30 days in the leap years 2, 5, 7, 10, 13, 16, 18, 21, 24, 26, 29 of each cycle of 30.
-/
namespace Verif.Spec.Islamic

def Leap (y : Int) : Prop := (y % 30).toNat ∈ [2, 5, 7, 10, 13, 16, 18, 21, 24, 26, 29]

instance : DecidablePred Leap := fun y =>
  inferInstanceAs (Decidable ((y % 30).toNat ∈ [2, 5, 7, 10, 13, 16, 18, 21, 24, 26, 29]))

def monthLen (y m : Int) : Int :=
  if m % 2 = 1 then 30 else if m = 12 ∧ Leap y then 30 else 29

def yearLen (y : Int) : Int := if Leap y then 355 else 354

/-- Days in the `n` first years. -/
def yearsLen : Nat → Int
  | 0 => 0
  | n + 1 => yearsLen n + yearLen (n + 1)

/-- Days in the `n` first months of year `y`. -/
def monthsLen (y : Int) : Nat → Int
  | 0 => 0
  | n + 1 => monthsLen y n + monthLen y (n + 1)

def Valid (y m d : Int) : Prop := 1 ≤ y ∧ 1 ≤ m ∧ m ≤ 12 ∧ 1 ≤ d ∧ d ≤ monthLen y m

/-- Days since 1 Muharram of year 1 (day 0). -/
def dayCount (y m d : Int) : Int :=
  yearsLen (y - 1).toNat + monthsLen y (m - 1).toNat + (d - 1)

end Verif.Spec.Islamic
