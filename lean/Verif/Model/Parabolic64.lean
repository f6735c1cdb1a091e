import Verif.Model.Kepler64
import Verif.Model.Orbits
/-
Motion in a parabola (v3/parabolic/parabolic.go) in double precision.
-/
namespace Verif.Model.Parabolic64

open Verif.Go.F64 Verif.Model.Kepler64

/-- Functions of package math. -/
structure Fns where
  cbrt : ℝ → ℝ
  atan : ℝ → ℝ

/-- What is assumed of them. -/
structure Fns.Ok (f : Fns) : Prop where
  cbrt : ∀ y, |f.cbrt (y ^ 3) - y| ≤ 5e-16 * |y|
  atan : ∀ x, |f.atan x - Real.arctan x| ≤ 1e-15

/-- `W`; the constant is folded by the compiler and rounded once.  v3/parabolic/parabolic.go:24. -/
noncomputable def W (timeP q jde : ℝ) : ℝ := fl (fl (fl (fl (3 * Orbits.K / Real.sqrt 2) * fl (jde - timeP)) / q) / fl (Real.sqrt q))

/-- `G`.  v3/parabolic/parabolic.go:25. -/
noncomputable def G (timeP q jde : ℝ) : ℝ := fl (W timeP q jde * 0.5)

/-- `s`.  v3/parabolic/parabolic.go:27. -/
noncomputable def s (Y : ℝ) : ℝ := fl (Y - fl (1 / Y))

/-- `AnomalyDistance`; `none` stands for the infinities that follow from the division 1/Y when Y is zero.  v3/parabolic/parabolic.go:23-31. -/
def AnomalyDistance (f : Fns) (timeP q jde : ℝ) (out : Option (ℝ × ℝ)) : Prop :=
  ∃ h Y, MulAdd 1 (G timeP q jde) (G timeP q jde) h ∧ Y = f.cbrt (fl (G timeP q jde + fl (Real.sqrt h))) ∧
    ((Y = 0 ∧ out = none) ∨ (Y ≠ 0 ∧ ∃ e, MulAdd 1 (s Y) (s Y) e ∧ out = some (fl (2 * f.atan (s Y)), fl (q * e))))

end Verif.Model.Parabolic64
