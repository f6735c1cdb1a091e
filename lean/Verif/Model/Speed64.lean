import Verif.Model.Kepler64
import Mathlib.Analysis.SpecialFunctions.Sqrt
/-
The speeds of v3/elliptic/elliptic.go in double precision.  There is no product whose result is added, so nothing can be fused.
-/
namespace Verif.Model.Speed64

open Verif.Go.F64

/-- `math.Sqrt`: correctly rounded, NaN (`none`) for negative arguments. -/
noncomputable def sqrt64 (x : ℝ) : Option ℝ := if x < 0 then none else some (fl (Real.sqrt x))

/-- `Velocity`.  v3/elliptic/elliptic.go:155-157. -/
noncomputable def Velocity (a r : ℝ) : Option ℝ := (sqrt64 (fl (fl (1 / r) - fl (0.5 / a)))).map fun x => fl (fl 42.1219 * x)

/-- `VAphelion`.  v3/elliptic/elliptic.go:164-166. -/
noncomputable def VAphelion (a e : ℝ) : Option ℝ := (sqrt64 (fl (fl (fl (1 - e) / fl (1 + e)) / a))).map fun x => fl (fl 29.7847 * x)

/-- `VPerihelion`.  v3/elliptic/elliptic.go:173-175. -/
noncomputable def VPerihelion (a e : ℝ) : Option ℝ := (sqrt64 (fl (fl (fl (1 + e) / fl (1 - e)) / a))).map fun x => fl (fl 29.7847 * x)

end Verif.Model.Speed64
