import Verif.Model.Julian
import Mathlib.Algebra.Order.Floor.Ring
import Mathlib.Data.Rat.Floor
/-
Model of package jm (v3/jm/jm.go).
`int` is unbounded.  The floating point quantity `Q` of the Jewish calendar is a rational number (every
finite float64 is one); the rest of the package is integer arithmetic.
-/
namespace Verif.Model.Jm

open Verif.Go Verif.Model Verif.Model.Julian

/-- `S` of `bigD`.  v3/jm/jm.go:84-88. -/
def bigS (y : Int) : Int :=
  if y ≥ 1583 then floorDiv (3 * floorDiv y 100 - 5) 4 else 0

/-- `Q` of `bigD`, evaluated without rounding.  v3/jm/jm.go:89-92. -/
def exactQ (y : Int) : ℚ :=
  -(1904412361576 / 1000000000000) + 1554241796621 / 1000000000000 * (rem (12 * y + 12) 19 : Int)
    + 1 / 4 * (rem y 4 : Int) - 3177794022 / 1000000000000 * y + (bigS y : Int)

/-- `bigD` after `Q` has been computed, for an arbitrary value of `Q`.  v3/jm/jm.go:89-90, 93-108. -/
def bigDOf (y : Int) (Q : ℚ) : Int :=
  let S := bigS y
  let a := rem (12 * y + 12) 19
  let b := rem y 4
  let iq := ⌊Q⌋
  let j := rem (iq + 3 * y + 5 * b + 2 - S) 7
  let r := Q - iq
  if j = 2 ∨ j = 4 ∨ j = 6 then iq + 23
  else if j = 1 ∧ a > 6 ∧ r ≥ 63287037 / 100000000 then iq + 24
  else if j = 0 ∧ a > 11 ∧ r ≥ 897723765 / 1000000000 then iq + 23
  else iq + 22

/-- The results of `JewishCalendar`.  v3/jm/jm.go:33-40. -/
structure Jewish where
  A : Int
  mP : Int
  dP : Int
  mNY : Int
  dNY : Int
  months : Int
  days : Int
deriving DecidableEq

/-- `JewishCalendar`, with the function computing `Q` as a parameter so that any rounding can be put
in its place.  v3/jm/jm.go:41-81. -/
def JewishCalendar (Qf : Int → ℚ) (y : Int) : Jewish :=
  let A := y + 3760
  let D := bigDOf y (Qf y)
  let mNY := 9
  let dNY := D - 21
  let y1 := y + 1
  let leap := if y1 < 1583 then LeapYearJulian y1 else LeapYearGregorian y1
  { A := A
    mP := if D > 31 then 4 else 3
    dP := if D > 31 then D - 31 else D
    mNY := if dNY > 30 then mNY + 1 else mNY
    dNY := if dNY > 30 then dNY - 30 else dNY
    months := if rem A 19 ∈ [0, 3, 6, 8, 11, 14, 17] then 13 else 12
    days := (if leap then 366 else 365) + (bigDOf y1 (Qf y1) - D) }

/-- `MoslemToJulian`.  v3/jm/jm.go:112-134. -/
def MoslemToJulian (y m d : Int) : Int × Int :=
  let N := d + floorDiv (295001 * (m - 1) + 9900) 10000
  let Q := floorDiv y 30
  let R := rem y 30
  let A := floorDiv (11 * R + 3) 30
  let W := 404 * Q + 354 * R + 208 + A
  let Q1 := floorDiv W 1461
  let Q2 := rem W 1461
  let G := 621 + 28 * Q + 4 * Q1
  let K := floorDiv (Q2 * 10000) 3652422
  let E := floorDiv (3652422 * K) 10000
  let J := Q2 - E + N - 1
  let X := G + K
  if J > 366 ∧ rem X 4 = 0 then (X + 1, J - 366)
  else if J > 365 ∧ rem X 4 > 0 then (X + 1, J - 365)
  else (X, J)

/-- `ymd`.  v3/jm/jm.go:148-165. -/
def ymd (b : Int) : Int × Int × Int :=
  let c := floorDiv (b * 100 - 12210) 36525
  let d := floorDiv (36525 * c) 100
  let e := floorDiv ((b - d) * 10000) 306001
  let day := b - d - floorDiv (306001 * e) 10000
  let m := if e < 14 then e - 1 else e - 13
  let y := if m > 2 then c - 4716 else c - 4715
  (y, m, day)

/-- `JulianToGregorian`.  v3/jm/jm.go:137-146. -/
def JulianToGregorian (y dn : Int) : Int × Int × Int :=
  let JD := floorDiv (36525 * (y - 1)) 100 + 1721423 + dn
  let α := floorDiv (JD * 100 - 186721625) 3652425
  let β := if JD ≥ 2299161 then JD + (1 + α - floorDiv α 4) else JD
  ymd (β + 1524)

/-- `MoslemLeapYear`.  v3/jm/jm.go:168-171. -/
def MoslemLeapYear (y : Int) : Bool := decide (rem (11 * rem y 30 + 3) 30 > 18)

/-- `GregorianToJulian`.  v3/jm/jm.go:174-185. -/
def GregorianToJulian (y m d : Int) : Int × Int × Int :=
  let y' := if m < 3 then y - 1 else y
  let m' := if m < 3 then m + 12 else m
  let α := floorDiv y' 100
  let β := 2 - α + floorDiv α 4
  ymd (floorDiv (36525 * y') 100 + floorDiv (306001 * (m' + 1)) 10000 + d + 1722519 + β)

/-- The rounding of `365.25001·C` in `JulianToMoslem`.  v3/jm/jm.go:196-204 (exact arithmetic). -/
def moslemC2 (A : Int) : Int :=
  let C1 : ℚ := 36525001 / 100000 * (rem A 4 : Int)
  let C2 := ⌊C1⌋
  if C1 - C2 > 1 / 2 then C2 + 1 else C2

/-- `JulianToMoslem`.  v3/jm/jm.go:188-230. -/
def JulianToMoslem (y m d : Int) : Int × Int × Int :=
  let W := if rem y 4 = 0 then 1 else 2
  let N := floorDiv (275 * m) 9 - W * floorDiv (m + 9) 12 + d - 30
  let A := y - 623
  let B := floorDiv A 4
  let Dp := 1461 * B + 170 + moslemC2 A
  let Q := floorDiv Dp 10631
  let R := rem Dp 10631
  let J := floorDiv R 354
  let K := rem R 354
  let O := floorDiv (11 * J + 14) 30
  let H := 30 * Q + J + 1
  let JJ := K - O + N - 1
  let days := if MoslemLeapYear y then 355 else 354
  let H' := if JJ > days then H + 1 else H
  let JJ' := if JJ > days then JJ - days else JJ
  if JJ' = 355 then (H', 12, 30)
  else
    let S := floorDiv ((JJ' - 1) * 10) 295
    (H', 1 + S, floorDiv (10 * JJ' - 295 * S) 10)

/-- `MMonth.String`: index into a table of 12 names, panic outside 1..12 (`none`).  v3/jm/jm.go:240-256. -/
def mmonthString (names : Vector String 12) (m : Int) : Option String :=
  if h : 0 ≤ m - 1 ∧ m - 1 < 12 then some (names[(m - 1).toNat]'(by omega)) else none

end Verif.Model.Jm
