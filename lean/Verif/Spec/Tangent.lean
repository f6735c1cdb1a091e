import Verif.Spec.Rotation
/-
Small displacements on the sphere as vectors.  Independent of the models.
-/
namespace Verif.Spec

open Real

/-- The unit vector eastward (increasing longitude) at longitude r. -/
noncomputable def east (r : ℝ) : V3 := !₂[-sin r, cos r, 0]

/-- The unit vector northward (increasing latitude) at longitude r and latitude d. -/
noncomputable def north (r d : ℝ) : V3 := !₂[-sin d * cos r, -sin d * sin r, cos d]

/-- The displacement on the sphere caused by small changes of longitude and latitude. -/
noncomputable def shift (r d dr dd : ℝ) : V3 := (cos d * dr) • east r + dd • north r d

/-- The part of a vector perpendicular to the unit vector n. -/
noncomputable def perp (n v : V3) : V3 := v - (inner ℝ v n) • n

/-- Vector product. -/
noncomputable def cross (a b : V3) : V3 := !₂[a 1 * b 2 - a 2 * b 1, a 2 * b 0 - a 0 * b 2, a 0 * b 1 - a 1 * b 0]

end Verif.Spec
