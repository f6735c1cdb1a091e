import Verif.Model.Fit64
import Verif.Model.Sep64
/-
Phase angle and illuminated fraction of a planet (v3/illum/illum.go) in double precision.
-/
namespace Verif.Model.Illum64

open Verif.Go.F64 Verif.Go.F64.Ex Verif.Model.Fit64

/-- The argument of the arc cosine in `PhaseAngle`; the variables are r, Δ, R.  v3/illum/illum.go:24. -/
def cosi : Ex := (v 0 * v 0 + v 1 * v 1 - v 2 * v 2) / (q 2 1 * v 0 * v 1)

/-- `math.Acos`: `none` is the NaN it returns for an argument outside [-1, 1]. -/
noncomputable def acos (f : Sep64.Inv) (x : ℝ) : Option ℝ := if |x| ≤ 1 then some (f.acos x) else none

/-- `PhaseAngle`.  v3/illum/illum.go:23-25. -/
def PhaseAngle (l : Trig) (f : Sep64.Inv) (r Δ R : ℝ) (out : Option ℝ) : Prop := ∃ x, Run l (at3 r Δ R) cosi x ∧ out = acos f x

/-- The quotient in `Fraction`; the variables are s, R, and nothing.  v3/illum/illum.go:34. -/
def num : Ex := v 0 * v 0 - v 1 * v 1

/-- The denominator; the variables are r, Δ.  v3/illum/illum.go:34. -/
def den : Ex := q 4 1 * v 0 * v 1

/-- `Fraction`.  v3/illum/illum.go:31-35. -/
def Fraction (l : Trig) (r Δ R k : ℝ) : Prop :=
  ∃ n d, Run l (at3 (fl (r + Δ)) R 0) num n ∧ Run l (at3 r Δ 0) den d ∧ k = fl (n / d)

end Verif.Model.Illum64
