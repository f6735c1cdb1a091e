import Verif.Model.Vsop
import Verif.Model.Precess
import Verif.Model.Nutation
import Verif.Model.Rise
/-
Model of the position functions of package planetposition (v3/planetposition/planetposition.go) and of the year conversions of
package base (v3/base/julian.go).  Exact real arithmetic.  `AngleFromDeg` and `AngleFromSec` of the external package unit scale
degrees and seconds of arc to radians.
-/
set_option linter.dupNamespace false

namespace Verif.Model

open Real Verif.Go

/-- `JulianYearToJDE`.  v3/base/julian.go:32-34. -/
noncomputable def JulianYearToJDE (jy : ℝ) : ℝ := 2451545 + 365.25 * (jy - 2000)

/-- `JDEToJulianYear`.  v3/base/julian.go:37-39. -/
noncomputable def JDEToJulianYear (jde : ℝ) : ℝ := 2000 + (jde - 2451545) / 365.25

/-- `BesselianYearToJDE`.  v3/base/julian.go:42-44. -/
noncomputable def BesselianYearToJDE (byr : ℝ) : ℝ := 2415020.3135 + 365.2421988 * (byr - 1900)

/-- `JDEToBesselianYear`.  v3/base/julian.go:47-49. -/
noncomputable def JDEToBesselianYear (jde : ℝ) : ℝ := 1900 + (jde - 2415020.3135) / 365.2421988

namespace PlanetPos

open Verif.Model.Vsop Verif.Model.Nutation

/-- The sum of one series, from the last term to the first.  v3/planetposition/planetposition.go:204-209. -/
noncomputable def sumTerms (terms : List (Term ℝ)) (τ : ℝ) : ℝ :=
  terms.reverse.foldl (fun acc t => acc + t.a * cos (t.b + t.c * τ)) 0

/-- The closure `sum`: the six series combined by Horner's rule.  v3/planetposition/planetposition.go:202-212. -/
noncomputable def sum (c : Coeff ℝ) (τ : ℝ) : ℝ :=
  hornerR τ ((List.range 6).map fun x => sumTerms (c x) τ)

/-- `Position2000`: (L, B, R).  v3/planetposition/planetposition.go:198-217. -/
noncomputable def Position2000 (v : V87Planet ℝ) (jde : ℝ) : ℝ × ℝ × ℝ :=
  let T := J2000Century jde
  let τ := T * 0.1
  (pmod (sum v.l τ) (2 * π), sum v.b τ, sum v.r τ)

/-- `Position`: (L, B, R); `precess.EclipticPosition` without proper motion.  v3/planetposition/planetposition.go:229-240. -/
noncomputable def Position (v : V87Planet ℝ) (jde : ℝ) : ℝ × ℝ × ℝ :=
  let q := Position2000 v jde
  let ε := MeanObliquity (JulianYearToJDE 2000)
  let e := Precess.eclipticPositionVal ⟨q.1, q.2.1⟩ 2000 (JDEToJulianYear jde) 0 0 (sin ε) (cos ε)
  (e.Lon, e.Lat, q.2.2)

/-- `ToFK5`: (L5, B5).  v3/planetposition/planetposition.go:243-253. -/
noncomputable def ToFK5 (L B jde : ℝ) : ℝ × ℝ :=
  let T := J2000Century jde
  let Lp := L - (1.397 * T + 0.00031 * T * T) * π / 180
  (L + (-0.09033 + 0.03916 * (cos Lp + sin Lp) * tan B) * sec, B + 0.03916 * (cos Lp - sin Lp) * sec)

end PlanetPos

end Verif.Model
