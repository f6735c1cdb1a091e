import Verif.Model.Rise
/-
Model of package nutation (v3/nutation/nutation.go).  Exact real arithmetic, angles in radians.
-/
namespace Verif.Model.Nutation

open Real

/-- `unit.AngleFromSec`. -/
noncomputable def sec : ℝ := π / 180 / 3600

/-- A row of `table22A`. -/
structure Row where
  d : ℝ
  m : ℝ
  n : ℝ
  f : ℝ
  w : ℝ
  s0 : ℝ
  s1 : ℝ
  c0 : ℝ
  c1 : ℝ

/-- `table22A`.  v3/nutation/nutation.go:110-177. -/
noncomputable def table22A : List Row := [
  ⟨0, 0, 0, 0, 1, -171996, -174.2, 92025, 8.9⟩,
  ⟨-2, 0, 0, 2, 2, -13187, -1.6, 5736, -3.1⟩,
  ⟨0, 0, 0, 2, 2, -2274, -0.2, 977, -0.5⟩,
  ⟨0, 0, 0, 0, 2, 2062, 0.2, -895, 0.5⟩,
  ⟨0, 1, 0, 0, 0, 1426, -3.4, 54, -0.1⟩,
  ⟨0, 0, 1, 0, 0, 712, 0.1, -7, 0⟩,
  ⟨-2, 1, 0, 2, 2, -517, 1.2, 224, -0.6⟩,
  ⟨0, 0, 0, 2, 1, -386, -0.4, 200, 0⟩,
  ⟨0, 0, 1, 2, 2, -301, 0, 129, -0.1⟩,
  ⟨-2, -1, 0, 2, 2, 217, -0.5, -95, 0.3⟩,
  ⟨-2, 0, 1, 0, 0, -158, 0, 0, 0⟩,
  ⟨-2, 0, 0, 2, 1, 129, 0.1, -70, 0⟩,
  ⟨0, 0, -1, 2, 2, 123, 0, -53, 0⟩,
  ⟨2, 0, 0, 0, 0, 63, 0, 0, 0⟩,
  ⟨0, 0, 1, 0, 1, 63, 0.1, -33, 0⟩,
  ⟨2, 0, -1, 2, 2, -59, 0, 26, 0⟩,
  ⟨0, 0, -1, 0, 1, -58, -0.1, 32, 0⟩,
  ⟨0, 0, 1, 2, 1, -51, 0, 27, 0⟩,
  ⟨-2, 0, 2, 0, 0, 48, 0, 0, 0⟩,
  ⟨0, 0, -2, 2, 1, 46, 0, -24, 0⟩,
  ⟨2, 0, 0, 2, 2, -38, 0, 16, 0⟩,
  ⟨0, 0, 2, 2, 2, -31, 0, 13, 0⟩,
  ⟨0, 0, 2, 0, 0, 29, 0, 0, 0⟩,
  ⟨-2, 0, 1, 2, 2, 29, 0, -12, 0⟩,
  ⟨0, 0, 0, 2, 0, 26, 0, 0, 0⟩,
  ⟨-2, 0, 0, 2, 0, -22, 0, 0, 0⟩,
  ⟨0, 0, -1, 2, 1, 21, 0, -10, 0⟩,
  ⟨0, 2, 0, 0, 0, 17, -0.1, 0, 0⟩,
  ⟨2, 0, -1, 0, 1, 16, 0, -8, 0⟩,
  ⟨-2, 2, 0, 2, 2, -16, 0.1, 7, 0⟩,
  ⟨0, 1, 0, 0, 1, -15, 0, 9, 0⟩,
  ⟨-2, 0, 1, 0, 1, -13, 0, 7, 0⟩,
  ⟨0, -1, 0, 0, 1, -12, 0, 6, 0⟩,
  ⟨0, 0, 2, -2, 0, 11, 0, 0, 0⟩,
  ⟨2, 0, -1, 2, 1, -10, 0, 5, 0⟩,
  ⟨2, 0, 1, 2, 2, -8, 0, 3, 0⟩,
  ⟨0, 1, 0, 2, 2, 7, 0, -3, 0⟩,
  ⟨-2, 1, 1, 0, 0, -7, 0, 0, 0⟩,
  ⟨0, -1, 0, 2, 2, -7, 0, 3, 0⟩,
  ⟨2, 0, 0, 2, 1, -7, 0, 3, 0⟩,
  ⟨2, 0, 1, 0, 0, 6, 0, 0, 0⟩,
  ⟨-2, 0, 2, 2, 2, 6, 0, -3, 0⟩,
  ⟨-2, 0, 1, 2, 1, 6, 0, -3, 0⟩,
  ⟨2, 0, -2, 0, 1, -6, 0, 3, 0⟩,
  ⟨2, 0, 0, 0, 1, -6, 0, 3, 0⟩,
  ⟨0, -1, 1, 0, 0, 5, 0, 0, 0⟩,
  ⟨-2, -1, 0, 2, 1, -5, 0, 3, 0⟩,
  ⟨-2, 0, 0, 0, 1, -5, 0, 3, 0⟩,
  ⟨0, 0, 2, 2, 1, -5, 0, 3, 0⟩,
  ⟨-2, 0, 2, 0, 1, 4, 0, 0, 0⟩,
  ⟨-2, 1, 0, 2, 1, 4, 0, 0, 0⟩,
  ⟨0, 0, 1, -2, 0, 4, 0, 0, 0⟩,
  ⟨-1, 0, 1, 0, 0, -4, 0, 0, 0⟩,
  ⟨-2, 1, 0, 0, 0, -4, 0, 0, 0⟩,
  ⟨1, 0, 0, 0, 0, -4, 0, 0, 0⟩,
  ⟨0, 0, 1, 2, 0, 3, 0, 0, 0⟩,
  ⟨0, 0, -2, 2, 2, -3, 0, 0, 0⟩,
  ⟨-1, -1, 1, 0, 0, -3, 0, 0, 0⟩,
  ⟨0, 1, 1, 0, 0, -3, 0, 0, 0⟩,
  ⟨0, -1, 1, 2, 2, -3, 0, 0, 0⟩,
  ⟨2, -1, -1, 2, 2, -3, 0, 0, 0⟩,
  ⟨0, 0, 3, 2, 2, -3, 0, 0, 0⟩,
  ⟨2, -1, 0, 2, 2, -3, 0, 0, 0⟩]

/-- The arguments D, M, N, F, Ω of `Nutation`.  v3/nutation/nutation.go:22-31. -/
noncomputable def argD (T : ℝ) : ℝ := hornerR T [297.85036, 445267.11148, -0.0019142, 1 / 189474] * π / 180
noncomputable def argM (T : ℝ) : ℝ := hornerR T [357.52772, 35999.050340, -0.0001603, -1 / 300000] * π / 180
noncomputable def argN (T : ℝ) : ℝ := hornerR T [134.96298, 477198.867398, 0.0086972, 1 / 5620] * π / 180
noncomputable def argF (T : ℝ) : ℝ := hornerR T [93.27191, 483202.017538, -0.0036825, 1 / 327270] * π / 180
noncomputable def argΩ (T : ℝ) : ℝ := hornerR T [125.04452, -1934.136261, 0.0020708, 1 / 450000] * π / 180

/-- The argument of a row.  v3/nutation/nutation.go:36. -/
noncomputable def Row.arg (r : Row) (T : ℝ) : ℝ :=
  r.d * argD T + r.m * argM T + r.n * argN T + r.f * argF T + r.w * argΩ T

/-- `Nutation`.  v3/nutation/nutation.go:20-44.  (The code sums in reverse order.) -/
noncomputable def Nutation (jde : ℝ) : ℝ × ℝ :=
  let T := J2000Century jde
  ((table22A.map fun r => sin (r.arg T) * (r.s0 + r.s1 * T)).sum * 0.0001 * sec,
   (table22A.map fun r => cos (r.arg T) * (r.c0 + r.c1 * T)).sum * 0.0001 * sec)

/-- `ApproxNutation`.  v3/nutation/nutation.go:50-62. -/
noncomputable def ApproxNutation (jde : ℝ) : ℝ × ℝ :=
  let T := (jde - 2451545) / 36525
  let Ω := (125.04452 - 1934.136261 * T) * π / 180
  let L := (280.4665 + 36000.7698 * T) * π / 180
  let N := (218.3165 + 481267.8813 * T) * π / 180
  ((-17.2 * sin Ω - 1.32 * sin (2 * L) - 0.23 * sin (2 * N) + 0.21 * sin (2 * Ω)) * sec,
   (9.2 * cos Ω + 0.57 * cos (2 * L) + 0.1 * cos (2 * N) - 0.09 * cos (2 * Ω)) * sec)

/-- `MeanObliquity`.  v3/nutation/nutation.go:69-76.  `FromSexaSec(23, 26, 21.448)` is 84381.448. -/
noncomputable def MeanObliquity (jde : ℝ) : ℝ :=
  hornerR (J2000Century jde) [84381.448, -46.815, -0.00059, 0.001813] * sec

/-- `MeanObliquityLaskar`.  v3/nutation/nutation.go:85-99. -/
noncomputable def MeanObliquityLaskar (jde : ℝ) : ℝ :=
  hornerR (J2000Century jde * 0.01)
    [84381.448, -4680.93, -1.55, 1999.25, -51.38, -249.67, -39.05, 7.12, 27.87, 5.79, 2.45] * sec

/-- `NutationInRA`.  v3/nutation/nutation.go:103-108. -/
noncomputable def NutationInRA (jde : ℝ) : ℝ :=
  (Nutation jde).1 * cos (MeanObliquity jde + (Nutation jde).2)

end Verif.Model.Nutation
