import Mathlib.Data.Real.Sqrt
/-
Model of package fit (v3/fit/fit.go).  `float64` is ideal (real numbers).
The loops accumulate several sums in one pass; here each accumulator is its own fold over the points,
in the same order.  Division by a zero determinant (Inf or NaN in Go) is excluded by hypothesis in the theorems.
-/
namespace Verif.Model.Fit

/-- The accumulator `s += g(p[i])` of the loops.  v3/fit/fit.go:15-22, 34-42, 54-65, 83-98, 114-119. -/
noncomputable def acc (p : List (ℝ × ℝ)) (g : ℝ → ℝ → ℝ) : ℝ := p.foldl (fun s q => s + g q.1 q.2) 0

/-- `Linear`.  v3/fit/fit.go:13-29. -/
noncomputable def Linear (p : List (ℝ × ℝ)) : ℝ × ℝ :=
  let sx := acc p fun x _ => x
  let sy := acc p fun _ y => y
  let sx2 := acc p fun x _ => x * x
  let sxy := acc p fun x y => x * y
  let n : ℝ := p.length
  let d := n * sx2 - sx * sx
  ((n * sxy - sx * sy) / d, (sy * sx2 - sx * sxy) / d)

/-- `CorrelationCoefficient`.  v3/fit/fit.go:32-46. -/
noncomputable def CorrelationCoefficient (p : List (ℝ × ℝ)) : ℝ :=
  let sx := acc p fun x _ => x
  let sy := acc p fun _ y => y
  let sx2 := acc p fun x _ => x * x
  let sy2 := acc p fun _ y => y * y
  let sxy := acc p fun x y => x * y
  let n : ℝ := p.length
  (n * sxy - sx * sy) / (Real.sqrt (n * sx2 - sx * sx) * Real.sqrt (n * sy2 - sy * sy))

/-- `Quadratic`.  v3/fit/fit.go:52-74. -/
noncomputable def Quadratic (p : List (ℝ × ℝ)) : ℝ × ℝ × ℝ :=
  let P := acc p fun x _ => x
  let Q := acc p fun x _ => x * x
  let R := acc p fun x _ => x * (x * x)
  let S := acc p fun x _ => (x * x) * (x * x)
  let T := acc p fun _ y => y
  let U := acc p fun x y => x * y
  let V := acc p fun x y => (x * x) * y
  let N : ℝ := p.length
  let D := N * Q * S + 2 * P * Q * R - Q * Q * Q - P * P * S - N * R * R
  ((N * Q * V + P * R * T + P * Q * U - Q * Q * T - P * P * V - N * R * U) / D,
   (N * S * U + P * Q * V + Q * R * T - Q * Q * U - P * S * T - N * R * V) / D,
   (Q * S * T + Q * R * U + P * R * V - Q * Q * V - P * S * U - R * R * T) / D)

/-- `Func3`.  v3/fit/fit.go:81-105. -/
noncomputable def Func3 (p : List (ℝ × ℝ)) (f0 f1 f2 : ℝ → ℝ) : ℝ × ℝ × ℝ :=
  let M := acc p fun x _ => f0 x * f0 x
  let P := acc p fun x _ => f0 x * f1 x
  let Q := acc p fun x _ => f0 x * f2 x
  let R := acc p fun x _ => f1 x * f1 x
  let S := acc p fun x _ => f1 x * f2 x
  let T := acc p fun x _ => f2 x * f2 x
  let U := acc p fun x y => y * f0 x
  let V := acc p fun x y => y * f1 x
  let W := acc p fun x y => y * f2 x
  let D := M * R * T + 2 * P * Q * S - M * S * S - R * Q * Q - T * P * P
  ((U * (R * T - S * S) + V * (Q * S - P * T) + W * (P * S - Q * R)) / D,
   (U * (S * Q - P * T) + V * (M * T - Q * Q) + W * (P * Q - M * S)) / D,
   (U * (P * S - R * Q) + V * (P * Q - M * S) + W * (M * R - P * P)) / D)

/-- `Func1`.  v3/fit/fit.go:111-121. -/
noncomputable def Func1 (p : List (ℝ × ℝ)) (f : ℝ → ℝ) : ℝ :=
  let syf := acc p fun x y => y * f x
  let sf2 := acc p fun x _ => f x * f x
  syf / sf2

end Verif.Model.Fit
