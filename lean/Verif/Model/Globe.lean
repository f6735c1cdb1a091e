import Verif.Go.ExtMath
import Mathlib.Analysis.SpecialFunctions.Pow.Real
/-
Model of package globe (v3/globe/globe.go).  `Distance` on extended floats, the rest exact reals.
-/
namespace Verif.Model.Globe

open Verif.Go Real

/-- `Ellipsoid`.  v3/globe/globe.go:19-22. -/
structure Ellipsoid where
  Er : ℝ
  Fl : ℝ

/-- `Earth76`.  v3/globe/globe.go:25. -/
noncomputable def Earth76 : Ellipsoid := ⟨6378.14, 1 / 298.257⟩

/-- `Ellipsoid.A`.  v3/globe/globe.go:30-32. -/
def Ellipsoid.A (e : Ellipsoid) : ℝ := e.Er

/-- `Ellipsoid.B`.  v3/globe/globe.go:37-39. -/
def Ellipsoid.B (e : Ellipsoid) : ℝ := e.Er * (1 - e.Fl)

/-- `Ellipsoid.Eccentricity`.  v3/globe/globe.go:42-44. -/
noncomputable def Ellipsoid.Eccentricity (e : Ellipsoid) : ℝ := sqrt ((2 - e.Fl) * e.Fl)

/-- `Ellipsoid.ParallaxConstants`: (ρ sin φ′, ρ cos φ′).  v3/globe/globe.go:50-56. -/
noncomputable def Ellipsoid.ParallaxConstants (e : Ellipsoid) (φ h : ℝ) : ℝ × ℝ :=
  let boa := 1 - e.Fl
  let u := arctan (boa * tan φ)
  let hoa := h * 1e-3 / e.Er
  (sin u * boa + hoa * sin φ, cos u + hoa * cos φ)

/-- `Ellipsoid.RadiusAtLatitude`.  v3/globe/globe.go:70-73. -/
noncomputable def Ellipsoid.RadiusAtLatitude (e : Ellipsoid) (φ : ℝ) : ℝ :=
  e.A * cos φ / sqrt (1 - (2 - e.Fl) * e.Fl * sin φ * sin φ)

/-- `OneDegreeOfLongitude`.  v3/globe/globe.go:81-83. -/
noncomputable def OneDegreeOfLongitude (rp : ℝ) : ℝ := rp * π / 180

/-- `Ellipsoid.RadiusOfCurvature`.  v3/globe/globe.go:94-98. -/
noncomputable def Ellipsoid.RadiusOfCurvature (e : Ellipsoid) (φ : ℝ) : ℝ :=
  let e2 := (2 - e.Fl) * e.Fl
  e.A * (1 - e2) / (1 - e2 * sin φ * sin φ) ^ (1.5 : ℝ)

/-- `Coord`.  v3/globe/globe.go:121-124. -/
structure Coord where
  Lat : ℝ
  Lon : ℝ

/-- `ApproxAngularDistance`.  v3/globe/globe.go:129-133. -/
noncomputable def ApproxAngularDistance (p1 p2 : Coord) : ℝ :=
  sin p1.Lat * sin p2.Lat + cos p1.Lat * cos p2.Lat * cos (p1.Lon - p2.Lon)

/-- `Ellipsoid.Distance`, with `sincos2`.  v3/globe/globe.go:150-168.  Extended floats from the first division on. -/
noncomputable def Ellipsoid.Distance (e : Ellipsoid) (c1 c2 : Coord) : EF :=
  let f := (c1.Lat + c2.Lat) / 2
  let g := (c1.Lat - c2.Lat) / 2
  let l := (c1.Lon - c2.Lon) / 2
  let s2f := sin f * sin f
  let c2f := cos f * cos f
  let s2g := sin g * sin g
  let c2g := cos g * cos g
  let s2l := sin l * sin l
  let c2l := cos l * cos l
  let s := s2g * c2l + c2f * s2l
  let c := c2g * c2l + s2f * s2l
  let ω := EF.atan (EF.sqrt (EF.fin s / EF.fin c))
  let r := EF.sqrt (EF.fin (s * c)) / ω
  let d := EF.fin 2 * ω * EF.fin e.Er
  let h1 := (EF.fin 3 * r - EF.fin 1) / EF.fin (2 * c)
  let h2 := (EF.fin 3 * r + EF.fin 1) / EF.fin (2 * s)
  d * (EF.fin 1 + EF.fin e.Fl * (h1 * EF.fin s2f * EF.fin c2g - h2 * EF.fin c2f * EF.fin s2g))

end Verif.Model.Globe
