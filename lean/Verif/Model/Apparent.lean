import Verif.Go.Angle
/-
Model of package apparent (v3/apparent/apparent.go): corrections of star places.  Exact real arithmetic, radians.  What the code computes
from the date by other packages is a parameter: the mean obliquity ε (nutation.MeanObliquity), the nutation Δψ, Δε (nutation.Nutation),
the true longitude s of the Sun (solar.True), the eccentricity e (solar.Eccentricity), the longitude p of the perihelion
(function perihelion), and for AberrationRonVondrak the three sums over the table rvTerm.
-/
namespace Verif.Model.Apparent

open Real

/-- `κ`, the constant of aberration.  v3/apparent/apparent.go:35. -/
noncomputable def kappa : ℝ := 20.49552 * (π / 180 / 3600)

/-- `Nutation`: (Δα1, Δδ1).  v3/apparent/apparent.go:22-32. -/
noncomputable def Nutation (ε dψ dε α δ : ℝ) : ℝ × ℝ :=
  ((cos ε + sin ε * sin α * tan δ) * dψ - cos α * tan δ * dε, dψ * (sin ε * cos α) + dε * sin α)

/-- `EclipticAberration`: (Δλ, Δβ).  v3/apparent/apparent.go:44-56. -/
noncomputable def EclipticAberration (s e p l β : ℝ) : ℝ × ℝ :=
  (kappa * ((e * cos (p - l) - cos (s - l)) / cos β), -(kappa * (sin β * (sin (s - l) - e * sin (p - l)))))

/-- `Aberration`: (Δα2, Δδ2).  v3/apparent/apparent.go:60-79. -/
noncomputable def Aberration (ε s e p α δ : ℝ) : ℝ × ℝ :=
  let q1 := cos α * cos ε
  let q2 := cos ε * (tan ε * cos δ - sin α * sin δ)
  let q3 := cos α * sin δ
  (kappa * (e * (q1 * cos p + sin α * sin p) - (q1 * cos s + sin α * sin s)) / cos δ,
   kappa * (e * (cos p * q2 + sin p * q3) - (cos s * q2 + sin s * q3)))

/-- `c`, the speed of light in the unit of the table.  v3/apparent/apparent.go:130. -/
def lightC : ℝ := 17314463350

/-- `AberrationRonVondrak` from the sums Xp, Yp, Zp: (Δα, Δδ).  v3/apparent/apparent.go:98-128. -/
noncomputable def AberrationRonVondrak (Xp Yp Zp α δ : ℝ) : ℝ × ℝ :=
  ((Yp * cos α - Xp * sin α) / (lightC * cos δ), -((Xp * cos α + Yp * sin α) * sin δ - Zp * cos δ) / lightC)

end Verif.Model.Apparent
