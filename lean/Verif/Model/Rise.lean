import Verif.Go.Angle
import Verif.Go.Real
import Verif.Model.Interp
import Verif.Model.Moon
/-
Models of packages sidereal and rise.  Exact real arithmetic.

`unit.Time` is a number of seconds.  Assumed behaviour of package unit: `TimeFromRad` and `Time.Rad` convert with 86400 s = 2π,
`TimeFromDay` multiplies by 86400, `Time.Mod1` reduces to [0, 86400).
-/
namespace Verif.Model

open Real Verif.Go

/-- `unit.TimeFromRad`. -/
noncomputable def timeFromRad (x : ℝ) : ℝ := x * 43200 / π
/-- `Time.Rad`. -/
noncomputable def timeRad (t : ℝ) : ℝ := t * π / 43200
/-- `Time.Mod1`. -/
noncomputable def timeMod1 (t : ℝ) : ℝ := pmod t 86400

/-- `J2000Century`.  v3/base/julian.go:54-60. -/
noncomputable def J2000Century (jde : ℝ) : ℝ := (jde - 2451545) / 36525

namespace Sidereal

/-- `jdToCFrac`.  v3/sidereal/sidereal.go:21-24. -/
noncomputable def jdToCFrac (jd : ℝ) : ℝ × ℝ :=
  let (j0, f) := modf (jd + 0.5)
  (J2000Century (j0 - 0.5), f)

/-- `iau82`.  v3/sidereal/sidereal.go:31. -/
noncomputable def iau82 : List ℝ := [24110.54841, 8640184.812866, 0.093104, 0.0000062]

/-- `mean0UT`.  v3/sidereal/sidereal.go:54-58. -/
noncomputable def mean0UT (jd : ℝ) : ℝ × ℝ :=
  let (cen, f) := jdToCFrac jd
  (hornerR cen iau82, f * 86400)

/-- `mean`.  v3/sidereal/sidereal.go:41-44. -/
noncomputable def mean (jd : ℝ) : ℝ :=
  let (s, f) := mean0UT jd
  s + f * 1.00273790935

/-- `Mean`.  v3/sidereal/sidereal.go:37-39. -/
noncomputable def Mean (jd : ℝ) : ℝ := timeMod1 (mean jd)

/-- `Mean0UT`.  v3/sidereal/sidereal.go:49-52. -/
noncomputable def Mean0UT (jd : ℝ) : ℝ := timeMod1 (mean0UT jd).1

/-- `Apparent`; `nut jd` is the value in seconds of `nutation.NutationInRA(jd)`.  v3/sidereal/sidereal.go:65-69. -/
noncomputable def Apparent (nut : ℝ → ℝ) (jd : ℝ) : ℝ := timeMod1 (mean jd + nut jd)

/-- `Apparent0UT`.  v3/sidereal/sidereal.go:75-82. -/
noncomputable def Apparent0UT (nut : ℝ → ℝ) (jd : ℝ) : ℝ :=
  let (j0, f) := modf (jd + 0.5)
  let cen := ((j0 : ℝ) - 0.5 - 2451545) / 36525
  let s := hornerR cen iau82 + f * 1.00273790935 * 86400
  timeMod1 (s + nut j0)

end Sidereal

namespace Rise

/-- `globe.Coord`: latitude, longitude (positive westward).  v3/globe/globe.go:118-124. -/
structure Coord where
  Lat : ℝ
  Lon : ℝ

/-- Rise, transit and set. -/
structure Three where
  rise : ℝ
  transit : ℝ
  set : ℝ

/-- Errors of the package: circumpolar, or an error of package interp. -/
inductive Err where
  | Circumpolar
  | interp (e : Interp.Err)

/-- `Stdh0Stellar`, `Stdh0Solar`, `Stdh0LunarMean` (in radians).  v3/rise/rise.go:37-41. -/
noncomputable def Stdh0Stellar : ℝ := -34 / 60 * deg
noncomputable def Stdh0Solar : ℝ := -50 / 60 * deg
noncomputable def Stdh0LunarMean : ℝ := 0.125 * deg

/-- `ApproxTimes`.  v3/rise/rise.go:68-86.
Simplification: the quotient is that of real numbers, so a zero divisor (an observer or a body exactly at a pole) is outside the model. -/
noncomputable def ApproxTimes (p : Coord) (h0 Th0 α δ : ℝ) : Except Err Three :=
  let cH0 := (sin h0 - sin p.Lat * sin δ) / (cos p.Lat * cos δ)
  if cH0 < -1 ∨ cH0 > 1 then .error .Circumpolar
  else
    let H0 := timeFromRad (arccos cH0)
    let mt := timeFromRad (α + p.Lon) - Th0
    .ok ⟨timeMod1 (mt - H0), timeMod1 mt, timeMod1 (mt + H0)⟩

/-- The closure `adjustRS`.  v3/rise/rise.go:141-152. -/
noncomputable def adjustRS (p : Coord) (ΔT h0 Th0 : ℝ) (d3α d3δ : Interp.Len3) (m : ℝ) : ℝ :=
  let th0 := timeMod1 (Th0 + m * (360.985647 / 360))
  let ut := m + ΔT
  let α := d3α.InterpolateX ut
  let δ := d3δ.InterpolateX ut
  let Hrad := timeRad th0 - p.Lon - α
  let h := arcsin (sin p.Lat * sin δ + cos p.Lat * cos δ * cos Hrad)
  let md := (timeFromRad h - timeFromRad h0) / (cos δ * cos p.Lat * sin Hrad)
  m + md

/-- `Times`.  v3/rise/rise.go:109-159.  The slices `α3` and `δ3` have three elements, as documented. -/
noncomputable def Times (p : Coord) (ΔT h0 Th0 : ℝ) (α1 α2 α3 δ1 δ2 δ3 : ℝ) : Except Err Three :=
  match ApproxTimes p h0 Th0 α2 δ2 with
  | .error e => .error e
  | .ok t =>
    match Interp.NewLen3 (-86400) 86400 [α1, α2, α3] with
    | .error e => .error (.interp e)
    | .ok d3α =>
      match Interp.NewLen3 (-86400) 86400 [δ1, δ2, δ3] with
      | .error e => .error (.interp e)
      | .ok d3δ =>
        let th0 := timeMod1 (Th0 + t.transit * (360.985647 / 360))
        let α := d3α.InterpolateX (t.transit + ΔT)
        let H := th0 - timeFromRad (p.Lon + α)
        .ok ⟨adjustRS p ΔT h0 Th0 d3α d3δ t.rise, t.transit - H, adjustRS p ΔT h0 Th0 d3α d3δ t.set⟩

end Rise

end Verif.Model
