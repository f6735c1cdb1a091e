import Verif.Model.Globe
import Verif.Model.Illum
/-
Model of the remaining functions of packages globe, illum, semidiameter and base.  Exact real arithmetic; `Cmp` on extended floats.
-/
namespace Verif.Model

open Real Verif.Go

namespace Globe

/-- `Rho`.  v3/globe/globe.go:61-64. -/
noncomputable def Rho (φ : ℝ) : ℝ := 0.9983271 + 0.0016764 * cos (φ * 2) - 0.0000035 * cos (φ * 4)

/-- `OneDegreeOfLatitude`.  v3/globe/globe.go:105-107. -/
noncomputable def OneDegreeOfLatitude (rm : ℝ) : ℝ := rm * π / 180

/-- `GeocentricLatitudeDifference`.  v3/globe/globe.go:111-116. -/
noncomputable def GeocentricLatitudeDifference (φ : ℝ) : ℝ := (692.73 * sin (φ * 2) - 1.16 * sin (φ * 4)) * (π / 180 / 3600)

/-- `ApproxLinearDistance`.  v3/globe/globe.go:139-141. -/
noncomputable def ApproxLinearDistance (d : ℝ) : ℝ := 6371 * d

end Globe

namespace Illum

/-- `Mercury`.  v3/illum/illum.go:77-80. -/
noncomputable def Mercury (r Δ i : ℝ) : ℝ :=
  let s := toDeg i - 50
  1.16 + 5 * log10 (r * Δ) + (0.02838 + 0.0001023 * s) * s

/-- `Venus`.  v3/illum/illum.go:86-89. -/
noncomputable def Venus (r Δ i : ℝ) : ℝ :=
  let id := toDeg i
  (-4) + 5 * log10 (r * Δ) + (0.01322 + 0.0000004247 * id * id) * id

/-- `Mars`.  v3/illum/illum.go:95-97. -/
noncomputable def Mars (r Δ i : ℝ) : ℝ := -1.3 + 5 * log10 (r * Δ) + 0.01486 * toDeg i

/-- `Jupiter`.  v3/illum/illum.go:102-104. -/
noncomputable def Jupiter (r Δ : ℝ) : ℝ := -8.93 + 5 * log10 (r * Δ)

/-- `Uranus`.  v3/illum/illum.go:122-124. -/
noncomputable def Uranus (r Δ : ℝ) : ℝ := -6.85 + 5 * log10 (r * Δ)

/-- `Neptune`.  v3/illum/illum.go:129-131. -/
noncomputable def Neptune (r Δ : ℝ) : ℝ := -7.05 + 5 * log10 (r * Δ)

/-- `Mercury84`.  v3/illum/illum.go:139-142. -/
noncomputable def Mercury84 (r Δ i : ℝ) : ℝ := hornerR (toDeg i) [-0.42 + 5 * log10 (r * Δ), 0.038, -0.000273, 0.000002]

/-- `Venus84`.  v3/illum/illum.go:150-153. -/
noncomputable def Venus84 (r Δ i : ℝ) : ℝ := hornerR (toDeg i) [-4.4 + 5 * log10 (r * Δ), 0.0009, -0.000239, 0.00000065]

/-- `Mars84`.  v3/illum/illum.go:161-163. -/
noncomputable def Mars84 (r Δ i : ℝ) : ℝ := -1.52 + 5 * log10 (r * Δ) + 0.016 * toDeg i

/-- `Jupiter84`.  v3/illum/illum.go:171-173. -/
noncomputable def Jupiter84 (r Δ i : ℝ) : ℝ := -9.4 + 5 * log10 (r * Δ) + 0.005 * toDeg i

/-- `Uranus84`.  v3/illum/illum.go:194-196. -/
noncomputable def Uranus84 (r Δ : ℝ) : ℝ := -7.19 + 5 * log10 (r * Δ)

/-- `Neptune84`.  v3/illum/illum.go:203-205. -/
noncomputable def Neptune84 (r Δ : ℝ) : ℝ := -6.87 + 5 * log10 (r * Δ)

/-- `Pluto84`.  v3/illum/illum.go:212-214. -/
noncomputable def Pluto84 (r Δ : ℝ) : ℝ := -1 + 5 * log10 (r * Δ)

end Illum

namespace Semidiameter

/-- `Asteroid`.  v3/semidiameter/semidiameter.go:95-97. -/
noncomputable def Asteroid (d Δ : ℝ) : ℝ := 0.0013788 * arcsec * (d / Δ)

end Semidiameter

namespace Base

open Classical in
/-- `Cmp`; `a > b` is `b < a`.  v3/base/math.go:68-76. -/
noncomputable def Cmp (a b : EF) : ℤ := if a < b then -1 else if b < a then 1 else 0

end Base

end Verif.Model
