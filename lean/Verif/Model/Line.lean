import Verif.Model.Interp
import Verif.Go.Angle
/-
Model of v3/line/line.go (angles are real numbers of radians).
-/
namespace Verif.Model.Line

open Real Verif.Go

/-- The body of the loop of `Time`, v3/line/line.go:31-33. -/
noncomputable def gc (r1 d1 r2 d2 r3 d3 : ℝ) : ℝ :=
  tan d1 * sin (r2 - r3) + tan d2 * sin (r3 - r1) + tan d3 * sin (r1 - r2)

/-- The errors `Time` can return: wrong lengths, or an error of package interp. -/
inductive Err where
  | length
  | interp (e : Interp.Err)

/-- v3/line/line.go:24-40 `Time`. -/
noncomputable def Time (r1 d1 r2 d2 : ℝ) (r3 d3 : List ℝ) (t1 t5 : ℝ) : Except Err ℝ :=
  if r3.length ≠ 5 ∨ d3.length ≠ 5 then .error .length
  else
    match Interp.NewLen5 t1 t5 (List.zipWith (gc r1 d1 r2 d2) r3 d3) with
    | .error e => .error (.interp e)
    | .ok l5 =>
      match l5.Zero false with
      | .error e => .error (.interp e)
      | .ok t => .ok t

/-- v3/line/line.go:49-56 `Angle`. -/
noncomputable def Angle (r1 d1 r2 d2 r3 d3 : ℝ) : ℝ :=
  let C1 := atan2 (sin (r2 - r1)) (cos d2 * tan d1 - sin d2 * cos (r2 - r1))
  let C2 := atan2 (sin (r3 - r2)) (cos d2 * tan d3 - sin d2 * cos (r3 - r2))
  C1 + C2

/-- v3/line/line.go:64-82 `Error`. -/
noncomputable def Error (r1 d1 r2 d2 r0 d0 : ℝ) : ℝ :=
  let X1 := cos d1 * cos r1
  let X2 := cos d2 * cos r2
  let Y1 := cos d1 * sin r1
  let Y2 := cos d2 * sin r2
  let Z1 := sin d1
  let Z2 := sin d2
  let A := Y1 * Z2 - Z1 * Y2
  let B := Z1 * X2 - X1 * Z2
  let C := X1 * Y2 - Y1 * X2
  let m := tan r0
  let n := tan d0 / cos r0
  arcsin ((A + B * m + C * n) / (sqrt (A * A + B * B + C * C) * sqrt (1 + m * m + n * n)))

/-- v3/line/line.go:88-118 `AngleError`: (ψ, ω). -/
noncomputable def AngleError (r1 d1 r2 d2 r3 d3 : ℝ) : ℝ × ℝ :=
  let a1 := cos d1 * cos r1
  let a2 := cos d2 * cos r2
  let a3 := cos d3 * cos r3
  let b1 := cos d1 * sin r1
  let b2 := cos d2 * sin r2
  let b3 := cos d3 * sin r3
  let c1 := sin d1
  let c2 := sin d2
  let c3 := sin d3
  let l1 := b1 * c2 - b2 * c1
  let l2 := b2 * c3 - b3 * c2
  let l3 := b1 * c3 - b3 * c1
  let m1 := c1 * a2 - c2 * a1
  let m2 := c2 * a3 - c3 * a2
  let m3 := c1 * a3 - c3 * a1
  let n1 := a1 * b2 - a2 * b1
  let n2 := a2 * b3 - a3 * b2
  let n3 := a1 * b3 - a3 * b1
  (arccos ((l1 * l2 + m1 * m2 + n1 * n2) / (sqrt (l1 * l1 + m1 * m1 + n1 * n1) * sqrt (l2 * l2 + m2 * m2 + n2 * n2))),
   arcsin ((a2 * l3 + b2 * m3 + c2 * n3) / (sqrt (a2 * a2 + b2 * b2 + c2 * c2) * sqrt (l3 * l3 + m3 * m3 + n3 * n3))))

end Verif.Model.Line
