import Mathlib.Algebra.Order.Floor.Ring
import Mathlib.Data.Real.Basic
import Mathlib.Algebra.Order.Archimedean.Real.Basic
/-
Go `float64` idealised as exact real numbers: conversions between floats and
integers, and `math.Modf`.
-/
namespace Verif.Go

/-- `math.Trunc` / the integer conversion `int(x)`, `int64(x)` of a float that is
in range: truncation toward zero. -/
noncomputable def trunc (x : ℝ) : Int := if x < 0 then ⌈x⌉ else ⌊x⌋

/-- `math.Modf(x)`: integer part truncated toward zero, and the fraction, both
with the sign of `x`.  The integer part is returned as an integer. -/
noncomputable def modf (x : ℝ) : Int × ℝ := (trunc x, x - trunc x)

theorem trunc_nonneg {x : ℝ} (h : 0 ≤ x) : trunc x = ⌊x⌋ := by
  simp [trunc, not_lt.2 h]

end Verif.Go
