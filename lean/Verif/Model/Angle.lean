import Verif.Go.Angle
/-
Models of packages angle (v3/angle/angle.go, separations and position angle) and base.Hav.
Exact real arithmetic.
-/
namespace Verif.Model.Angle

open Verif.Go Real

/-- `base.CosSmallAngle`, the cosine of 10′.  v3/base/math.go:12-15. -/
noncomputable def CosSmallAngle : ℝ := cos (10 / 60 * π / 180)

/-- `math.Hypot`. -/
noncomputable def hypot (x y : ℝ) : ℝ := sqrt (x ^ 2 + y ^ 2)

/-- `base.Hav`.  v3/base/math.go:20-23. -/
noncomputable def Hav (a : ℝ) : ℝ := 0.5 * (1 - cos a)

/-- `Sep`.  v3/angle/angle.go:28-37. -/
noncomputable def Sep (r1 d1 r2 d2 : ℝ) : ℝ :=
  let cd := sin d1 * sin d2 + cos d1 * cos d2 * cos (r1 - r2)
  if cd < CosSmallAngle then arccos cd
  else hypot ((r2 - r1) * cos d1) (d2 - d1)

/-- `SepHav`.  v3/angle/angle.go:124-128. -/
noncomputable def SepHav (r1 d1 r2 d2 : ℝ) : ℝ :=
  2 * arcsin (sqrt (Hav (d2 - d1) + cos d1 * cos d2 * Hav (r2 - r1)))

/-- `SepPauwels`.  v3/angle/angle.go:133-141. -/
noncomputable def SepPauwels (r1 d1 r2 d2 : ℝ) : ℝ :=
  let cdr := cos (r2 - r1)
  let x := cos d1 * sin d2 - sin d1 * cos d2 * cdr
  let y := cos d2 * sin (r2 - r1)
  let z := sin d1 * sin d2 + cos d1 * cos d2 * cdr
  atan2 (hypot x y) z

/-- `RelativePosition`.  v3/angle/angle.go:147-151. -/
noncomputable def RelativePosition (r1 d1 r2 d2 : ℝ) : ℝ :=
  atan2 (sin (r2 - r1)) (cos d2 * tan d1 - sin d2 * cos (r2 - r1))

end Verif.Model.Angle
