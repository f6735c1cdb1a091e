import Verif.Go.Angle
import Mathlib.Analysis.SpecialFunctions.Pow.Real
/-
Models of packages node, parabolic and nearparabolic (v3/node, v3/parabolic, v3/nearparabolic).  Exact real arithmetic.
-/
namespace Verif.Model.Orbits

open Verif.Go Real

/-- `base.K`.  v3/base/const.go:7. -/
noncomputable def K : ℝ := 0.01720209895

/-- `math.Cbrt`: the real cube root, odd. -/
noncomputable def cbrt (x : ℝ) : ℝ := if x < 0 then -((-x) ^ (1 / 3 : ℝ)) else x ^ (1 / 3 : ℝ)

/-- Eccentric anomaly computed by `el` for the true anomaly ν.  v3/node/node.go:35. -/
noncomputable def elE (ν ecc : ℝ) : ℝ := 2 * arctan (sqrt ((1 - ecc) / (1 + ecc)) * tan (ν * 0.5))

/-- `el`: (jde, r).  v3/node/node.go:34-42. -/
noncomputable def el (ν axis ecc timeP : ℝ) : ℝ × ℝ :=
  let E := elE ν ecc
  let M := E - ecc * sin E
  let n := K / axis / sqrt axis
  (timeP + M / n, axis * (1 - ecc * cos E))

/-- `EllipticAscending`.  v3/node/node.go:20-22. -/
noncomputable def EllipticAscending (axis ecc argP timeP : ℝ) : ℝ × ℝ := el (-argP) axis ecc timeP

/-- `EllipticDescending`.  v3/node/node.go:30-32. -/
noncomputable def EllipticDescending (axis ecc argP timeP : ℝ) : ℝ × ℝ := el (π - argP) axis ecc timeP

/-- `pa`: (jde, r).  v3/node/node.go:64-69. -/
noncomputable def pa (ν q timeP : ℝ) : ℝ × ℝ :=
  let s := tan (ν * 0.5)
  (timeP + 27.403895 * s * (s * s + 3) * q * sqrt q, q * (1 + s * s))

/-- `ParabolicAscending`.  v3/node/node.go:50-52. -/
noncomputable def ParabolicAscending (q argP timeP : ℝ) : ℝ × ℝ := pa (-argP) q timeP

/-- `ParabolicDescending`.  v3/node/node.go:60-62. -/
noncomputable def ParabolicDescending (q argP timeP : ℝ) : ℝ × ℝ := pa (π - argP) q timeP

/-- `parabolic.Elements.AnomalyDistance`: (ν, r).  v3/parabolic/parabolic.go:23-31. -/
noncomputable def parabolicAD (timeP pDis jde : ℝ) : ℝ × ℝ :=
  let W := 3 * K / sqrt 2 * (jde - timeP) / pDis / sqrt pDis
  let G := W * 0.5
  let Y := cbrt (G + sqrt (G * G + 1))
  let s := Y - 1 / Y
  (2 * arctan s, pDis * (1 + s * s))

/-- How a run of `nearparabolic.Elements.AnomalyDistance` ends.  `running` : the given number of steps did not suffice for the
unbounded inner loop. -/
inductive Outcome where
  | ok (ν r : ℝ)
  | noConvergence
  | running

/-- The series loop: z, g1, q3 are the loop variables, `some q3` when left by the break, `none` when the function returns the
error.  The loop is bounded by the test z > 50, so fuel 50 suffices (z starts at 1).
v3/nearparabolic/nearparabolic.go:50-62. -/
noncomputable def seriesLoop (g y : ℝ) : ℕ → ℝ → ℝ → ℝ → Option ℝ
  | 0, _, _, _ => none
  | fuel + 1, z, g1, q3 =>
    let z := z + 1
    let g1 := -g1 * g * y
    let z1 := (z - (z + 1) * g) / (2 * z + 1)
    let f := z1 * g1
    let q3 := q3 + f
    if z > 50 ∨ |f| > 10000 then none
    else if |f| ≤ 1e-9 then some q3
    else seriesLoop g y fuel z g1 q3

/-- One pass of the Newton loop.  v3/nearparabolic/nearparabolic.go:69. -/
noncomputable def newtonStep (q3 s : ℝ) : ℝ := (2 * s * s * s / 3 + q3) / (s * s + 1)

/-- The Newton loop, with a bound on the number of passes.  v3/nearparabolic/nearparabolic.go:67-73. -/
noncomputable def newtonLoop (q3 : ℝ) : ℕ → ℝ → Option ℝ
  | 0, _ => none
  | fuel + 1, s1 =>
    let s := newtonStep q3 s1
    if |s - s1| ≤ 1e-9 then some s else newtonLoop q3 fuel s

/-- How the outer loop ends. -/
inductive LoopResult where
  | done (s : ℝ)
  | noConvergence
  | running

/-- The outer loop; `l` counts passes, `steps` bounds the passes of each Newton loop.
v3/nearparabolic/nearparabolic.go:44-77. -/
noncomputable def outerLoop (q2 g : ℝ) (steps : ℕ) : ℕ → ℕ → ℝ → LoopResult
  | 0, _, _ => .noConvergence
  | fuel + 1, l, s0 =>
    let y := s0 * s0
    match seriesLoop g y 50 1 (-y * s0) (q2 + 2 * g * s0 * y / 3) with
    | none => .noConvergence
    | some q3 =>
      let l := l + 1
      if l > 50 then .noConvergence
      else
        match newtonLoop q3 steps s0 with
        | none => .running
        | some s => if |s - s0| ≤ 1e-9 then .done s else outerLoop q2 g steps fuel l s

/-- Starting value, the solution for the parabola.  v3/nearparabolic/nearparabolic.go:37-41. -/
noncomputable def startS (q2 t : ℝ) : ℝ :=
  let s := 2 / (3 * |q2|)
  let s := 2 / tan (2 * arctan (cbrt (tan (arctan s / 2))))
  if t < 0 then -s else s

/-- The tail of the function, from s.  v3/nearparabolic/nearparabolic.go:79-84. -/
noncomputable def finish (pDis ecc s : ℝ) : Outcome :=
  let ν := 2 * arctan s
  let r := pDis * (1 + ecc) / (1 + ecc * cos ν)
  .ok (if ν < 0 then ν + 2 * π else ν) r

/-- `nearparabolic.Elements.AnomalyDistance`.  v3/nearparabolic/nearparabolic.go:26-85. -/
noncomputable def nearparabolicAD (steps : ℕ) (timeP pDis ecc jde : ℝ) : Outcome :=
  let q1 := K * sqrt ((1 + ecc) / pDis) / (2 * pDis)
  let g := (1 - ecc) / (1 + ecc)
  let t := jde - timeP
  if t = 0 then .ok 0 pDis
  else
    let q2 := q1 * t
    let s := startS q2 t
    if ecc ≠ 1 then
      match outerLoop q2 g steps 51 0 s with
      | .done s => finish pDis ecc s
      | .noConvergence => .noConvergence
      | .running => .running
    else finish pDis ecc s

end Verif.Model.Orbits
