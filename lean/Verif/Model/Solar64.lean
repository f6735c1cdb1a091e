import Verif.Go.FloatExpr
import Verif.Model.Pluto
/-
The Sun (v3/solar/solar.go) and Pluto (v3/pluto/pluto.go) in double precision.  Expressions are those of the code, operation by operation; a function is the
relation between its arguments and what it may return.  `fd` is unit.AngleFromDeg and `red` is Angle.Mod1, both of package unit.
-/
namespace Verif.Model.Solar64

open Verif.Go.F64 Verif.Go.F64.Ex

/-- Variables from a list. -/
def at4 (a b c d : ℝ) : ℕ → ℝ
  | 0 => a
  | 1 => b
  | 2 => c
  | _ => d

/-- Degrees of the mean anomaly, variable 0 is T.  v3/solar/solar.go:56. -/
def Md : Ex := horner (v 0) [q 35752911 100000, q 3599905029 100000, q (-1537) 10000000]

/-- Degrees of the mean longitude.  v3/solar/solar.go:39. -/
def Ld : Ex := horner (v 0) [q 28046646 100000, q 3600076983 100000, q 3032 10000000]

/-- Degrees of the equation of the centre, variable 1 is the mean anomaly.  v3/solar/solar.go:41-44. -/
def Cd : Ex :=
  horner (v 0) [q 1914602 1000000, q (-4817) 1000000, q (-14) 1000000] * sin (v 1) + (q 19993 1000000 - q 101 1000000 * v 0) * sin (v 1 * q 2 1) +
    q 289 1000000 * sin (v 1 * q 3 1)

/-- `MeanAnomaly`.  v3/solar/solar.go:54-57. -/
def MeanAnomaly (l : Trig) (fd : ℝ → ℝ) (T M : ℝ) : Prop := ∃ d, Run l (fun _ => T) Md d ∧ M = fd d

/-- `True`.  v3/solar/solar.go:37-46. -/
def TrueLon (l : Trig) (fd red : ℝ → ℝ) (T s ν : ℝ) : Prop :=
  ∃ d M c, Run l (fun _ => T) Ld d ∧ MeanAnomaly l fd T M ∧ Run l (at4 T M 0 0) Cd c ∧ s = red (fl (fd d + fd c)) ∧ ν = red (fl (M + fd c))

/-- `Eccentricity`, variable 0 is T.  v3/solar/solar.go:63-66. -/
def ecc : Ex := horner (v 0) [q 16708634 1000000000, q (-42037) 1000000000, q (-1267) 10000000000]

/-- Numerator of `Radius`, variable 0 is e.  v3/solar/solar.go:76. -/
def num : Ex := q 1000001018 1000000000 * (q 1 1 - v 0 * v 0)

/-- Denominator of `Radius`, variable 1 is ν.  v3/solar/solar.go:76. -/
def den : Ex := q 1 1 + v 0 * cos (v 1)

/-- `Radius`.  v3/solar/solar.go:72-77. -/
def Radius (l : Trig) (fd red : ℝ → ℝ) (T R : ℝ) : Prop :=
  ∃ s ν e a b, TrueLon l fd red T s ν ∧ Run l (fun _ => T) ecc e ∧ Run l (at4 e ν 0 0) num a ∧ Run l (at4 e ν 0 0) den b ∧ R = fl (a / b)

/-- Degrees of the Moon's node, `node`.  v3/solar/solar.go:93-95. -/
def Ωd : Ex := q 12504 100 - q 1934136 1000 * v 0

/-- `ApparentLongitude`.  v3/solar/solar.go:86-91. -/
def ApparentLongitude (l : Trig) (fd red : ℝ → ℝ) (T out : ℝ) : Prop :=
  ∃ s ν d, TrueLon l fd red T s ν ∧ Run l (fun _ => T) Ωd d ∧
    Run l (at4 s (fd (fl 0.00569)) (fd (fl 0.00478)) (fd d)) (v 0 - v 1 - v 2 * sin (v 3)) out

/-- `T` of `Heliocentric`, variable 0 is jde − J2000.  v3/pluto/pluto.go:21, v3/base/julian.go:52-60. -/
def T : Ex := v 0 / q 36525 1

/-- Degrees of `J`, `S`, `P`.  v3/pluto/pluto.go:22-24. -/
def Jd : Ex := q 3435 100 + q 30349057 10000 * T
/-- v3/pluto/pluto.go:23. -/
def Sd : Ex := q 5008 100 + q 12221138 10000 * T
/-- v3/pluto/pluto.go:24. -/
def Pd : Ex := q 23896 100 + q 14496 100 * T

/-- The degrees added to the longitude.  v3/pluto/pluto.go:32. -/
def ld : Ex := q 238958116 1000000 + q 14496 100 * T

/-- The argument of a row, variables 0, 1, 2 are J, S, P.  v3/pluto/pluto.go:27. -/
def arg (t : Pluto.Row) : Ex := v 0 * q t.i.num t.i.den + v 1 * q t.j.num t.j.den + v 2 * q t.k.num t.k.den

/-- A coefficient converted by `init`.  v3/pluto/pluto.go:55-63. -/
def coef (x : ℚ) : Ex := q x.num x.den * p 1 180

/-- `l`, variable 3 is the angle added at the end.  v3/pluto/pluto.go:25-32. -/
def lon : Ex := sumFrom (q 0 1) (Pluto.t37.map fun t => coef t.lA * sin (arg t) + coef t.lB * cos (arg t)) + v 3

/-- `b`, variable 3 is the angle subtracted at the end.  v3/pluto/pluto.go:25-33. -/
def lat : Ex := sumFrom (q 0 1) (Pluto.t37.map fun t => coef t.bA * sin (arg t) + coef t.bB * cos (arg t)) - v 3

/-- `r`.  v3/pluto/pluto.go:25-34. -/
def dist : Ex := sumFrom (q 0 1) (Pluto.t37.map fun t => q t.rA.num t.rA.den * sin (arg t) + q t.rB.num t.rB.den * cos (arg t)) + q 407241346 10000000

/-- `Heliocentric`.  v3/pluto/pluto.go:20-36. -/
def Heliocentric (l : Trig) (fd : ℝ → ℝ) (jde lo la r : ℝ) : Prop :=
  ∃ J S P d, Run l (fun _ => fl (jde - 2451545)) Jd J ∧ Run l (fun _ => fl (jde - 2451545)) Sd S ∧ Run l (fun _ => fl (jde - 2451545)) Pd P ∧
    Run l (fun _ => fl (jde - 2451545)) ld d ∧ Run l (at4 (fd J) (fd S) (fd P) (fd d)) lon lo ∧ Run l (at4 (fd J) (fd S) (fd P) (fd (fl 3.908239))) lat la ∧
    Run l (at4 (fd J) (fd S) (fd P) 0) dist r

end Verif.Model.Solar64
