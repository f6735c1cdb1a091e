import Verif.Model.MoonPos
import Verif.Model.Iterate
import Verif.Model.Interp
import Verif.Go.Float64
/-
Functions of packages base, iterate and interp in float64: every operation on floats is followed by rounding.
-/
namespace Verif.Model.Round64

open Verif.Go.F64 Verif.Model

/-- One step of `base.Horner`.  The language allows y*x + c to be computed with or without rounding of the product.  v3/base/math.go:33. -/
noncomputable def step (fma : Bool) (x y c : ℝ) : ℝ := if fma then fl (y * x + fl c) else fl (fl (y * x) + fl c)

/-- `base.Horner`; the coefficients are rounded when they become float64.  v3/base/math.go:27-36. -/
noncomputable def horner (fma : Bool) (x : ℝ) : List ℝ → ℝ
  | [] => 0
  | [c] => fl c
  | c :: l => step fma x (horner fma x l) c

/-- `base.J2000Century`.  v3/base/julian.go:54-60. -/
noncomputable def J2000Century (jde : ℝ) : ℝ := fl (fl (jde - 2451545) / 36525)

/-- The mean elongation D of `dmf`, from the ephemeris day.  v3/moonposition/moonposition.go:24-30, 45. -/
noncomputable def argD (fma : Bool) (jde : ℝ) : ℝ :=
  horner fma (J2000Century jde) [297.8501921 * deg, 445267.1114034 * deg, -0.0018819 * deg, deg / 545868, -deg / 113065000]

/-- Body of the loop of `BinaryRoot`.  v3/iterate/iterate.go:63-75. -/
noncomputable def binaryLoop (f : ℝ → ℝ) : ℕ → ℝ → ℝ → ℝ → ℝ → ℝ
  | 0, mid, _, _, _ => mid
  | fuel + 1, _, lower, upper, yLower =>
    let mid := fl (fl (lower + upper) / 2)
    let yMid := f mid
    if yMid = 0 then mid
    else if Iterate.signbit yLower = Iterate.signbit yMid then binaryLoop f fuel mid mid upper yMid
    else binaryLoop f fuel mid lower mid yLower

/-- `BinaryRoot`.  v3/iterate/iterate.go:60-77. -/
noncomputable def BinaryRoot (f : ℝ → ℝ) (lower upper : ℝ) : ℝ := binaryLoop f 52 0 lower upper (f lower)

/-- x + y z, the product rounded or not. -/
noncomputable def addMul (fma : Bool) (x y z : ℝ) : ℝ := if fma then fl (x + y * z) else fl (x + fl (y * z))

/-- `NewLen3` and `Len3.InterpolateN` for three values.  v3/interp/interp.go:70-76, 134-136. -/
noncomputable def interpolateN (f1 f2 : Bool) (y0 y1 y2 n : ℝ) : ℝ :=
  let a := fl (y1 - y0)
  let b := fl (y2 - y1)
  let c := fl (b - a)
  let abSum := fl (a + b)
  addMul f1 y1 (fl (n * 0.5)) (addMul f2 abSum n c)

end Verif.Model.Round64
