import Verif.Go.Angle
/-
Model of package coord (v3/coord/coord.go).  Exact real arithmetic, all angles, right ascensions and sidereal times in radians.
`unit.RAFromRad` reduces to [0, 2π) (external package unit, see Verif/Go/Angle.lean).
-/
namespace Verif.Model.Coord

open Verif.Go Real

/-- `EqToEcl`: (λ, β).  v3/coord/coord.go:66-72. -/
noncomputable def EqToEcl (α δ sε cε : ℝ) : ℝ × ℝ :=
  (atan2 (sin α * cε + sin δ / cos δ * sε) (cos α), arcsin (sin δ * cε - cos δ * sε * sin α))

/-- `EclToEq`: (α, δ).  v3/coord/coord.go:96-102. -/
noncomputable def EclToEq (lam β sε cε : ℝ) : ℝ × ℝ :=
  (mod1 (atan2 (sin lam * cε - sin β / cos β * sε) (cos lam)), arcsin (sin β * cε + cos β * sε * sin lam))

/-- `HzToEq`: (α, δ).  v3/coord/coord.go:130-138. -/
noncomputable def HzToEq (A h φ ψ st : ℝ) : ℝ × ℝ :=
  let H := atan2 (sin A) (cos A * sin φ + sin h / cos h * cos φ)
  (mod1 (st - ψ - H), arcsin (sin φ * sin h - cos φ * cos h * cos A))

/-- `EqToHz`: (A, h).  v3/coord/coord.go:213-221. -/
noncomputable def EqToHz (α δ φ ψ st : ℝ) : ℝ × ℝ :=
  let H := st - ψ - α
  (atan2 (sin H) (cos H * sin φ - sin δ / cos δ * cos φ), arcsin (sin φ * sin δ + cos φ * cos δ * cos H))

/-- `GalacticNorth1950.RA`, 12h 49m.  v3/coord/coord.go:153. -/
noncomputable def galRA : ℝ := (12 + 49 / 60) * (π / 12)

/-- `GalacticNorth1950.Dec`, 27.4°.  v3/coord/coord.go:154. -/
noncomputable def galDec : ℝ := 27.4 * (π / 180)

/-- `Galactic0Lon1950`, 33°.  v3/coord/coord.go:159. -/
noncomputable def gal0Lon : ℝ := 33 * (π / 180)

/-- `GalToEq`: (α, δ).  v3/coord/coord.go:167-177. -/
noncomputable def GalToEq (l b : ℝ) : ℝ × ℝ :=
  let dLon := l - gal0Lon - π / 2
  let y := atan2 (sin dLon) (cos dLon * sin galDec - sin b / cos b * cos galDec)
  (mod1 (y + galRA - π), arcsin (sin b * sin galDec + cos b * cos galDec * cos dLon))

/-- `EqToGal`: (l, b).  v3/coord/coord.go:244-255. -/
noncomputable def EqToGal (α δ : ℝ) : ℝ × ℝ :=
  let dα := galRA - α
  let x := atan2 (sin dα) (cos dα * sin galDec - sin δ / cos δ * cos galDec)
  (mod1 (gal0Lon + 1.5 * π - x), arcsin (sin δ * sin galDec + cos δ * cos galDec * cos dα))

end Verif.Model.Coord
