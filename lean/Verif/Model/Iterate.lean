import Verif.Go.Ext
/-
Model of package iterate (v3/iterate/iterate.go).  `float64` is ideal (real numbers).
The result of the two fixed point iterations is paired with the number of calls of the improvement function.
-/
namespace Verif.Model.Iterate

open Verif.Go Classical

/-- Body of the loop of `DecimalPlaces`; `fuel` counts the rounds left.  v3/iterate/iterate.go:26-32. -/
noncomputable def decimalLoop (better : ℝ → ℝ) (d : ℝ) : ℕ → ℝ → Option ℝ × ℕ
  | 0, _ => (none, 0)
  | fuel + 1, start =>
    let n := better start
    if |n - start| < d then (some n, 1)
    else
      let r := decimalLoop better d fuel n
      (r.1, r.2 + 1)

/-- `DecimalPlaces`; `none` is the error.  v3/iterate/iterate.go:24-34. -/
noncomputable def DecimalPlaces (better : ℝ → ℝ) (start : ℝ) (places maxIterations : ℤ) : Option ℝ × ℕ :=
  decimalLoop better ((10 : ℝ) ^ (-places)) maxIterations.toNat start

/-- Body of the loop of `FullPrecision`.  v3/iterate/iterate.go:43-49. -/
noncomputable def fullLoop (better : ℝ → ℝ) : ℕ → ℝ → Option ℝ × ℕ
  | 0, _ => (none, 0)
  | fuel + 1, start =>
    let n := better start
    if EF.abs ((EF.fin n - EF.fin start) / EF.fin n) < EF.fin (1 / 10 ^ 15) then (some n, 1)
    else
      let r := fullLoop better fuel n
      (r.1, r.2 + 1)

/-- `FullPrecision`; `none` is the error.  v3/iterate/iterate.go:42-51. -/
noncomputable def FullPrecision (better : ℝ → ℝ) (start : ℝ) (maxIterations : ℤ) : Option ℝ × ℕ :=
  fullLoop better maxIterations.toNat start

/-- `math.Signbit`.  Simplification: zero is taken as positive zero. -/
noncomputable def signbit (x : ℝ) : Bool := decide (x < 0)

/-- Body of the loop of `BinaryRoot`.  v3/iterate/iterate.go:63-75. -/
noncomputable def binaryLoop (f : ℝ → ℝ) : ℕ → ℝ → ℝ → ℝ → ℝ → ℝ
  | 0, mid, _, _, _ => mid
  | fuel + 1, _, lower, upper, yLower =>
    let mid := (lower + upper) / 2
    let yMid := f mid
    if yMid = 0 then mid
    else if signbit yLower = signbit yMid then binaryLoop f fuel mid mid upper yMid
    else binaryLoop f fuel mid lower mid yLower

/-- `BinaryRoot`.  v3/iterate/iterate.go:60-77. -/
noncomputable def BinaryRoot (f : ℝ → ℝ) (lower upper : ℝ) : ℝ :=
  binaryLoop f 52 0 lower upper (f lower)

end Verif.Model.Iterate
