import Mathlib.Algebra.Polynomial.Eval.Degree
import Mathlib.Data.Real.Basic
/-
Specification vocabulary for interpolation.
-/
namespace Verif.Spec

open Polynomial

/-- `g` is a polynomial function of degree at most `n`. -/
def PolyFun (n : ℕ) (g : ℝ → ℝ) : Prop := ∃ p : ℝ[X], p.natDegree ≤ n ∧ ∀ x, g x = p.eval x

/-- `g` takes the values `y` at the `y.length` equidistant abscissae from `x1` to `xn`. -/
def Through (x1 xn : ℝ) (y : List ℝ) (g : ℝ → ℝ) : Prop :=
  ∀ i : ℕ, ∀ h : i < y.length, g (x1 + i * ((xn - x1) / (y.length - 1))) = y[i]

end Verif.Spec
