import Verif.Model.Angle
/-
Models of packages circle and binary (exact real arithmetic).
-/
namespace Verif.Model

open Real Verif.Go Verif.Model.Angle Classical

namespace Circle

/-- The end of `Smallest`, from the three separations.  v3/circle/circle.go:31-42. -/
noncomputable def ofSides (a b c : ℝ) : ℝ × Bool :=
  let (a, b) := if b > a then (b, a) else (a, b)
  let (a, c) := if c > a then (c, a) else (a, c)
  if a * a ≥ b * b + c * c then (a, true)
  else (2 * a * b * c / sqrt ((a + b + c) * (a + b - c) * (b + c - a) * (a + c - b)), false)

/-- `Smallest`.  v3/circle/circle.go:22-43. -/
noncomputable def Smallest (r1 d1 r2 d2 r3 d3 : ℝ) : ℝ × Bool :=
  let cd1 := cos d1
  let cd2 := cos d2
  let cd3 := cos d3
  let a := 2 * arcsin (sqrt (Hav (d2 - d1) + cd1 * cd2 * Hav (r2 - r1)))
  let b := 2 * arcsin (sqrt (Hav (d3 - d2) + cd2 * cd3 * Hav (r3 - r2)))
  let c := 2 * arcsin (sqrt (Hav (d1 - d3) + cd3 * cd1 * Hav (r1 - r3)))
  ofSides a b c

end Circle

namespace Binary

/-- `M`.  v3/binary/binary.go:18-21. -/
noncomputable def M (year T P : ℝ) : ℝ :=
  let n := 2 * π / P
  mod1 (n * (year - T))

/-- `Position`: θ, ρ.  v3/binary/binary.go:35-44. -/
noncomputable def Position (e a i Ω ω E : ℝ) : ℝ × ℝ :=
  let r := a * (1 - e * cos E)
  let ν := 2 * arctan (sqrt ((1 + e) / (1 - e)) * tan (E / 2))
  let sνω := sin (ν + ω)
  let cνω := cos (ν + ω)
  let ci := cos i
  let num := sνω * ci
  (mod1 (atan2 num cνω + Ω), r * sqrt (num * num + cνω * cνω))

/-- `ApparentEccentricity`.  v3/binary/binary.go:52-61. -/
noncomputable def ApparentEccentricity (e i ω : ℝ) : ℝ :=
  let ci := cos i
  let sω := sin ω
  let cω := cos ω
  let A := (1 - e * e * cω * cω) * ci * ci
  let B := e * e * sω * cω * ci
  let C := 1 - e * e * sω * sω
  let d := A - C
  let sD := sqrt (d * d + 4 * B * B)
  sqrt (2 * sD / (A + C + sD))

end Binary

end Verif.Model
