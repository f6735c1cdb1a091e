import Mathlib.Analysis.InnerProductSpace.PiL2
import Mathlib.Geometry.Euclidean.Angle.Unoriented.Basic
import Mathlib.Analysis.SpecialFunctions.Trigonometric.Basic
/-
Directions on the celestial sphere as unit vectors.  Independent of the models.
-/
namespace Verif.Spec

open Real

/-- Vectors of space. -/
abbrev V3 := EuclideanSpace ℝ (Fin 3)

/-- The unit vector with longitude (right ascension) r and latitude (declination) d. -/
noncomputable def dir (r d : ℝ) : V3 := !₂[cos d * cos r, cos d * sin r, sin d]

/-- The true angular separation of two directions. -/
noncomputable def sep (r1 d1 r2 d2 : ℝ) : ℝ := InnerProductGeometry.angle (dir r1 d1) (dir r2 d2)

end Verif.Spec
