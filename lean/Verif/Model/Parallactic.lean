import Verif.Go.ExtMath
/-
Model of v3/parallactic/parallactic.go (angles are real numbers of radians).
-/
namespace Verif.Model.Parallactic

open Real Verif.Go

/-- v3/parallactic/parallactic.go:18-23 `ParallacticAngle`. -/
noncomputable def ParallacticAngle (φ δ H : ℝ) : ℝ := atan2 (sin H) (tan φ * cos δ - sin δ * cos H)

/-- v3/parallactic/parallactic.go:28-30 `ParallacticAngleOnHorizon`: `math.Acos` gives NaN outside [-1, 1]. -/
noncomputable def ParallacticAngleOnHorizon (φ δ : ℝ) : EF := EF.acos (EF.fin (sin φ) / EF.fin (cos δ))

open Classical in
/-- v3/parallactic/parallactic.go:42-53 `EclipticAtHorizon`; `θ` is the sidereal time as an angle. -/
noncomputable def EclipticAtHorizon (ε φ θ : ℝ) : ℝ × ℝ × ℝ :=
  let l := atan2 (-cos θ) (sin ε * (sin φ / cos φ) + cos ε * sin θ)
  let l := if l < 0 then l + π else l
  (l, l + π, arccos (cos ε * sin φ - sin ε * cos φ * sin θ))

/-- v3/parallactic/parallactic.go:63-65 `EclipticAtEquator`. -/
noncomputable def EclipticAtEquator (l ε : ℝ) : ℝ := arctan (-cos l * tan ε)

/-- v3/parallactic/parallactic.go:72-77 `DiurnalPathAtHorizon`: square root of a negative number and division by the zero
tangent of the latitude of the equator are kept. -/
noncomputable def DiurnalPathAtHorizon (δ φ : ℝ) : EF :=
  let t := tan φ
  let b := tan δ * t
  let c := EF.sqrt (.fin (1 - b * b))
  EF.atan (c * .fin (cos δ) / .fin t)

end Verif.Model.Parallactic
