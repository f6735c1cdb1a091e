import Verif.Model.Eclipse
/-
Geometry of eclipses, in equatorial radii of the Earth, independent of the code: a disc of radius `moonDisc` (the Moon) moving past two concentric discs (umbra σ and
penumbra ρ of the Earth's shadow), and a disc of radius `earthDisc` (the Earth in the fundamental plane) met by the penumbra p = u + 0.5461 and the umbra |u| of the Moon.
-/
namespace Verif.Spec.Eclipse

open Verif.Model.Eclipse Classical

noncomputable def moonDisc : ℝ := 0.2725
noncomputable def earthDisc : ℝ := 0.9972

/-- The kind of a lunar eclipse when the Moon passes at distance γ from the axis. -/
noncomputable def lunarKind (γ σ ρ : ℝ) : Kind :=
  if |γ| + moonDisc < σ then .Total               -- the Moon inside the umbra
  else if |γ| < σ + moonDisc then .Umbral         -- the discs overlap
  else if |γ| ≤ ρ + moonDisc then .Penumbral
  else .None

/-- The fraction of the Moon's diameter immersed in a shadow of radius s. -/
noncomputable def immersed (γ s : ℝ) : ℝ := (s + moonDisc - |γ|) / (2 * moonDisc)

/-- Half the length of the chord at distance γ of a circle of radius r. -/
noncomputable def halfChord (γ r : ℝ) : ℝ := Real.sqrt (r ^ 2 - γ ^ 2)

/-- The kind of a solar eclipse; the umbral cone narrows to u − 0.00464 √(1 − γ²) at the surface of the Earth. -/
noncomputable def solarKind (γ u : ℝ) : Kind :=
  if |γ| > earthDisc + (u + 0.5461) then .None
  else if |γ| < earthDisc then
    (if u < 0 then .Total else if u < 0.00464 * Real.sqrt (1 - γ ^ 2) then .AnnularTotal else .Annular)
  else if |γ| < min 1.026 (earthDisc + |u|) then .Total
  else .Partial

end Verif.Spec.Eclipse
