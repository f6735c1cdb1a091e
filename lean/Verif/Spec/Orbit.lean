import Verif.Spec.Rotation
import Mathlib.MeasureTheory.Integral.IntervalIntegral.Basic
import Mathlib.Analysis.Calculus.Deriv.Basic
/-
The ellipse as a curve, and motion on it.  Independent of the models.
-/
namespace Verif.Spec

open Real

/-- The length of the ellipse with semi-axes a and b, as the integral of the speed along it. -/
noncomputable def ellipseLength (a b : ℝ) : ℝ :=
  ∫ θ in (0)..(2 * π), ‖deriv (fun t : ℝ => ((a * cos t : ℝ) : ℂ) + (b * sin t : ℝ) * Complex.I) θ‖

/-- The place on an orbit with semi-axis a and eccentricity e at eccentric anomaly E: in the plane of the orbit, with the focus at
the origin and the perihelion on the first axis, then turned by the argument of perihelion, inclination and node. -/
noncomputable def orbitPlace (a e i ω Ω E : ℝ) : V3 :=
  rotZ Ω (rotX i (rotZ ω !₂[a * (cos E - e), a * (sqrt (1 - e ^ 2) * sin E), 0]))

end Verif.Spec
