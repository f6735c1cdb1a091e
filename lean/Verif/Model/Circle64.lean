import Verif.Model.Kepler64
import Mathlib.Analysis.SpecialFunctions.Sqrt
/-
The end of `Smallest` (v3/circle/circle.go) in double precision, from the three separations.  `none` is an infinite result or NaN.
-/
namespace Verif.Model.Circle64

open Verif.Go.F64 Verif.Model.Kepler64 Classical

/-- `b*b + c*c`: either product may be fused with the sum.  v3/circle/circle.go:37. -/
def Squares (b c S : ℝ) : Prop := MulAdd (fl (b * b)) c c S ∨ MulAdd (fl (c * c)) b b S

/-- `b*b + c*c` without fusing.  v3/circle/circle.go:37. -/
noncomputable def squares (b c : ℝ) : ℝ := fl (fl (b * b) + fl (c * c))

/-- The argument of `math.Sqrt`; products of sums cannot be fused.  v3/circle/circle.go:42. -/
noncomputable def area (a b c : ℝ) : ℝ :=
  fl (fl (fl (fl (fl (a + b) + c) * fl (fl (a + b) - c)) * fl (fl (b + c) - a)) * fl (fl (a + c) - b))

/-- The diameter for type II.  v3/circle/circle.go:41-42. -/
noncomputable def diameter (a b c : ℝ) : Option ℝ :=
  if area a b c ≤ 0 then none else some (fl (fl (fl (fl (2 * a) * b) * c) / fl (Real.sqrt (area a b c))))

/-- The two exchanges.  v3/circle/circle.go:31-36. -/
noncomputable def order (a b c : ℝ) : ℝ × ℝ × ℝ :=
  let (a, b) := if b > a then (b, a) else (a, b)
  let (a, c) := if c > a then (c, a) else (a, c)
  (a, b, c)

/-- The decision and the result, given the sum of the squares.  v3/circle/circle.go:37-42. -/
noncomputable def verdict (s : ℝ × ℝ × ℝ) (S : ℝ) : Option ℝ × Bool :=
  if fl (s.1 * s.1) ≥ S then (some s.1, true) else (diameter s.1 s.2.1 s.2.2, false)

/-- What `Smallest` may return for separations a, b, c.  v3/circle/circle.go:31-43. -/
def Result (a b c : ℝ) (r : Option ℝ × Bool) : Prop := ∃ S, Squares (order a b c).2.1 (order a b c).2.2 S ∧ r = verdict (order a b c) S

/-- What `Smallest` returns for separations a, b, c without fusing.  v3/circle/circle.go:31-43. -/
noncomputable def plain (a b c : ℝ) : Option ℝ × Bool := verdict (order a b c) (squares (order a b c).2.1 (order a b c).2.2)

end Verif.Model.Circle64
