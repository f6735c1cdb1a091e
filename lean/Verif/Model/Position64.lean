import Verif.Go.FloatExpr
import Verif.Model.MoonPos
/-
`moonposition.Position` and package nutation in float64, up to the conversions by package unit.  The expressions are those of the code, operation by
operation and in the order of the code; variable 0 is the difference jde − base.J2000 as computed.
-/
namespace Verif.Model

open Verif.Go.F64 Verif.Go.F64.Ex

namespace Moonposition64

/-- `T`: base.J2000Century divides the difference by 36525.  v3/moonposition/moonposition.go:45, v3/base/julian.go:52-60. -/
def T : Ex := v 0 / q 36525 1

/-- `D`.  v3/moonposition/moonposition.go:25-26. -/
def D : Ex := horner T [p 2978501921 1800000000, p 4452671114034 1800000000, p (-18819) 1800000000, p 1 98256240, p (-1) 20351700000]

/-- `M`.  v3/moonposition/moonposition.go:27-28. -/
def M : Ex := horner T [p 3575291092 1800000000, p 359990502909 1800000000, p (-1535) 1800000000, p 1 4408200000]

/-- `Mʹ`.  v3/moonposition/moonposition.go:29-30. -/
def M' : Ex := horner T [p 1349633964 1800000000, p 4771988675055 1800000000, p 87414 1800000000, p 1 12545820, p (-1) 2648160000]

/-- `F`.  v3/moonposition/moonposition.go:31-32. -/
def F : Ex := horner T [p 93272095 180000000, p 4832020175233 1800000000, p (-36539) 1800000000, p (-1) 634680000, p 1 155395800000]

/-- `Lʹ`.  v3/moonposition/moonposition.go:46-47. -/
def L' : Ex := horner T [p 2183164477 1800000000, p 48126788123421 18000000000, p (-15786) 1800000000, p 1 96991380, p (-1) 11734920000]

/-- `A1`.  v3/moonposition/moonposition.go:49. -/
def A1 : Ex := p 11975 18000 + p 131849 180000 * T

/-- `A2`.  v3/moonposition/moonposition.go:50. -/
def A2 : Ex := p 5309 18000 + p 47926429 18000 * T

/-- `A3`.  v3/moonposition/moonposition.go:51. -/
def A3 : Ex := p 31345 18000 + p 481266484 180000 * T

/-- `E`.  v3/moonposition/moonposition.go:52. -/
def E : Ex := horner T [q 1 1, q (-2516) 1000000, q (-74) 10000000]

/-- `E2`.  v3/moonposition/moonposition.go:53. -/
def E2 : Ex := E * E

/-- `Σl` before the loop.  v3/moonposition/moonposition.go:54. -/
def l0 : Ex := q 3958 1 * sin A1 + q 1962 1 * sin (L' - F) + q 318 1 * sin A2

/-- `Σr` before the loop.  v3/moonposition/moonposition.go:55. -/
def r0 : Ex := q 0 1

/-- `Σb` before the loop.  v3/moonposition/moonposition.go:56-57. -/
def b0 : Ex := q (-2235) 1 * sin L' + q 382 1 * sin A3 + q 175 1 * sin (A1 - F) + q 175 1 * sin (A1 + F) + q 127 1 * sin (L' - M') - q 115 1 * sin (L' + M')

/-- The argument of a row.  v3/moonposition/moonposition.go:60, 75. -/
def arg (r : Moonposition.Row) : Ex := D * q r.D 1 + M * q r.M 1 + M' * q r.M' 1 + F * q r.F 1

/-- The switch on r.M.  Other multiples of M do not occur in the tables.  v3/moonposition/moonposition.go:61-70, 76-83. -/
def fac (r : Moonposition.Row) (t : Ex) : Ex :=
  if r.M = 0 then t else if r.M = 1 ∨ r.M = -1 then t * E else if r.M = 2 ∨ r.M = -2 then t * E2 else q 0 1

/-- `Σl` after the loop.  v3/moonposition/moonposition.go:58-72. -/
def suml : Ex := sumFrom l0 (Moonposition.ta.map fun r => fac r (q r.c 1 * sin (arg r)))

/-- `Σr` after the loop.  v3/moonposition/moonposition.go:58-72. -/
def sumr : Ex := sumFrom r0 (Moonposition.ta.map fun r => fac r (q r.r 1 * cos (arg r)))

/-- `Σb` after the loop.  v3/moonposition/moonposition.go:73-85. -/
def sumb : Ex := sumFrom b0 (Moonposition.tb.map fun r => fac r (q r.c 1 * sin (arg r)))

/-- The argument of AngleFromDeg in λ.  v3/moonposition/moonposition.go:86. -/
def lonDeg : Ex := suml * q 1 1000000

/-- The argument of AngleFromDeg in β.  v3/moonposition/moonposition.go:87. -/
def latDeg : Ex := sumb * q 1 1000000

/-- `Δ`.  v3/moonposition/moonposition.go:88. -/
def dist : Ex := q 38500056 100 + sumr * q 1 1000

end Moonposition64

namespace Nutation64

/-- `T`.  v3/nutation/nutation.go:21, v3/base/julian.go:52-60. -/
def T : Ex := v 0 / q 36525 1

/-- `D`.  v3/nutation/nutation.go:22-23. -/
def D : Ex := horner T [q 29785036 100000, q 44526711148 100000, q (-19142) 10000000, q 1 189474] * p 1 1 / q 180 1

/-- `M`.  v3/nutation/nutation.go:24-25. -/
def M : Ex := horner T [q 35752772 100000, q 3599905034 100000, q (-1603) 10000000, q (-1) 300000] * p 1 1 / q 180 1

/-- `N`.  v3/nutation/nutation.go:26-27. -/
def N : Ex := horner T [q 13496298 100000, q 477198867398 1000000, q 86972 10000000, q 1 5620] * p 1 1 / q 180 1

/-- `F`.  v3/nutation/nutation.go:28-29. -/
def F : Ex := horner T [q 9327191 100000, q 483202017538 1000000, q (-36825) 10000000, q 1 327270] * p 1 1 / q 180 1

/-- `Ω`.  v3/nutation/nutation.go:30-31. -/
def Ω : Ex := horner T [q 12504452 100000, q (-1934136261) 1000000, q 20708 10000000, q 1 450000] * p 1 1 / q 180 1

/-- A row of `table22A`; the values are integers, but for s1 and c1, which are in tenths. -/
structure Row where
  d : ℤ
  m : ℤ
  n : ℤ
  f : ℤ
  w : ℤ
  s0 : ℤ
  s1 : ℤ
  c0 : ℤ
  c1 : ℤ

/-- `table22A`.  v3/nutation/nutation.go:110-177. -/
def table : List Row :=
   [⟨0, 0, 0, 0, 1, -171996, -1742, 92025, 89⟩, ⟨-2, 0, 0, 2, 2, -13187, -16, 5736, -31⟩, ⟨0, 0, 0, 2, 2, -2274, -2, 977, -5⟩,
    ⟨0, 0, 0, 0, 2, 2062, 2, -895, 5⟩, ⟨0, 1, 0, 0, 0, 1426, -34, 54, -1⟩, ⟨0, 0, 1, 0, 0, 712, 1, -7, 0⟩, ⟨-2, 1, 0, 2, 2, -517, 12, 224, -6⟩,
    ⟨0, 0, 0, 2, 1, -386, -4, 200, 0⟩, ⟨0, 0, 1, 2, 2, -301, 0, 129, -1⟩, ⟨-2, -1, 0, 2, 2, 217, -5, -95, 3⟩, ⟨-2, 0, 1, 0, 0, -158, 0, 0, 0⟩,
    ⟨-2, 0, 0, 2, 1, 129, 1, -70, 0⟩, ⟨0, 0, -1, 2, 2, 123, 0, -53, 0⟩, ⟨2, 0, 0, 0, 0, 63, 0, 0, 0⟩, ⟨0, 0, 1, 0, 1, 63, 1, -33, 0⟩,
    ⟨2, 0, -1, 2, 2, -59, 0, 26, 0⟩, ⟨0, 0, -1, 0, 1, -58, -1, 32, 0⟩, ⟨0, 0, 1, 2, 1, -51, 0, 27, 0⟩, ⟨-2, 0, 2, 0, 0, 48, 0, 0, 0⟩,
    ⟨0, 0, -2, 2, 1, 46, 0, -24, 0⟩, ⟨2, 0, 0, 2, 2, -38, 0, 16, 0⟩, ⟨0, 0, 2, 2, 2, -31, 0, 13, 0⟩, ⟨0, 0, 2, 0, 0, 29, 0, 0, 0⟩,
    ⟨-2, 0, 1, 2, 2, 29, 0, -12, 0⟩, ⟨0, 0, 0, 2, 0, 26, 0, 0, 0⟩, ⟨-2, 0, 0, 2, 0, -22, 0, 0, 0⟩, ⟨0, 0, -1, 2, 1, 21, 0, -10, 0⟩,
    ⟨0, 2, 0, 0, 0, 17, -1, 0, 0⟩, ⟨2, 0, -1, 0, 1, 16, 0, -8, 0⟩, ⟨-2, 2, 0, 2, 2, -16, 1, 7, 0⟩, ⟨0, 1, 0, 0, 1, -15, 0, 9, 0⟩,
    ⟨-2, 0, 1, 0, 1, -13, 0, 7, 0⟩, ⟨0, -1, 0, 0, 1, -12, 0, 6, 0⟩, ⟨0, 0, 2, -2, 0, 11, 0, 0, 0⟩, ⟨2, 0, -1, 2, 1, -10, 0, 5, 0⟩,
    ⟨2, 0, 1, 2, 2, -8, 0, 3, 0⟩, ⟨0, 1, 0, 2, 2, 7, 0, -3, 0⟩, ⟨-2, 1, 1, 0, 0, -7, 0, 0, 0⟩, ⟨0, -1, 0, 2, 2, -7, 0, 3, 0⟩,
    ⟨2, 0, 0, 2, 1, -7, 0, 3, 0⟩, ⟨2, 0, 1, 0, 0, 6, 0, 0, 0⟩, ⟨-2, 0, 2, 2, 2, 6, 0, -3, 0⟩, ⟨-2, 0, 1, 2, 1, 6, 0, -3, 0⟩,
    ⟨2, 0, -2, 0, 1, -6, 0, 3, 0⟩, ⟨2, 0, 0, 0, 1, -6, 0, 3, 0⟩, ⟨0, -1, 1, 0, 0, 5, 0, 0, 0⟩, ⟨-2, -1, 0, 2, 1, -5, 0, 3, 0⟩,
    ⟨-2, 0, 0, 0, 1, -5, 0, 3, 0⟩, ⟨0, 0, 2, 2, 1, -5, 0, 3, 0⟩, ⟨-2, 0, 2, 0, 1, 4, 0, 0, 0⟩, ⟨-2, 1, 0, 2, 1, 4, 0, 0, 0⟩,
    ⟨0, 0, 1, -2, 0, 4, 0, 0, 0⟩, ⟨-1, 0, 1, 0, 0, -4, 0, 0, 0⟩, ⟨-2, 1, 0, 0, 0, -4, 0, 0, 0⟩, ⟨1, 0, 0, 0, 0, -4, 0, 0, 0⟩,
    ⟨0, 0, 1, 2, 0, 3, 0, 0, 0⟩, ⟨0, 0, -2, 2, 2, -3, 0, 0, 0⟩, ⟨-1, -1, 1, 0, 0, -3, 0, 0, 0⟩, ⟨0, 1, 1, 0, 0, -3, 0, 0, 0⟩,
    ⟨0, -1, 1, 2, 2, -3, 0, 0, 0⟩, ⟨2, -1, -1, 2, 2, -3, 0, 0, 0⟩, ⟨0, 0, 3, 2, 2, -3, 0, 0, 0⟩, ⟨2, -1, 0, 2, 2, -3, 0, 0, 0⟩]

/-- `arg`.  v3/nutation/nutation.go:36. -/
def arg (r : Row) : Ex := q r.d 1 * D + q r.m 1 * M + q r.n 1 * N + q r.f 1 * F + q r.w 1 * Ω

/-- `Δψs`: the loop runs from the last row to the first.  v3/nutation/nutation.go:33-40. -/
def psi : Ex := sumFrom (q 0 1) (table.reverse.map fun r => sin (arg r) * (q r.s0 1 + q r.s1 10 * T))

/-- `Δεs`.  v3/nutation/nutation.go:33-40. -/
def eps : Ex := sumFrom (q 0 1) (table.reverse.map fun r => cos (arg r) * (q r.c0 1 + q r.c1 10 * T))

/-- The argument of AngleFromSec in Δψ.  v3/nutation/nutation.go:41. -/
def psiSec : Ex := psi * q 1 10000

/-- The argument of AngleFromSec in Δε.  v3/nutation/nutation.go:42. -/
def epsSec : Ex := eps * q 1 10000

/-- `Ω` of ApproxNutation.  v3/nutation/nutation.go:52. -/
def aΩ : Ex := (q 12504452 100000 - q 1934136261 1000000 * T) * p 1 1 / q 180 1

/-- `L` of ApproxNutation.  v3/nutation/nutation.go:53. -/
def aL : Ex := (q 2804665 10000 + q 360007698 10000 * T) * p 1 1 / q 180 1

/-- `N` of ApproxNutation.  v3/nutation/nutation.go:54. -/
def aN : Ex := (q 2183165 10000 + q 4812678813 10000 * T) * p 1 1 / q 180 1

/-- The argument of AngleFromSec in Δψ of ApproxNutation.  v3/nutation/nutation.go:55-59. -/
def approxPsi : Ex := q (-172) 10 * sin aΩ - q 132 100 * sin (q 2 1 * aL) - q 23 100 * sin (q 2 1 * aN) + q 21 100 * sin (q 2 1 * aΩ)

/-- The argument of AngleFromSec in Δε of ApproxNutation.  v3/nutation/nutation.go:55-58, 60. -/
def approxEps : Ex := q 92 10 * cos aΩ + q 57 100 * cos (q 2 1 * aL) + q 1 10 * cos (q 2 1 * aN) - q 9 100 * cos (q 2 1 * aΩ)

/-- The argument of AngleFromSec in MeanObliquity; variable 1 is unit.FromSexaSec(' ', 23, 26, 21.448).  v3/nutation/nutation.go:71-75. -/
def meanObl : Ex := horner T [v 1, q (-46815) 1000, q (-59) 100000, q 1813 1000000]

/-- The argument of AngleFromSec in MeanObliquityLaskar.  v3/nutation/nutation.go:87-98. -/
def meanOblLaskar : Ex := horner (T * q 1 100) [v 1, q (-468093) 100, q (-155) 100, q 199925 100, q (-5138) 100, q (-24967) 100, q (-3905) 100, q 712 100, q 2787 100, q 579 100, q 245 100]

end Nutation64

end Verif.Model
