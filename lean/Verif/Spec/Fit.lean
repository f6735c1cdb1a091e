import Mathlib.Data.Real.Basic
import Mathlib.Algebra.BigOperators.Group.List.Basic
/-
Specification vocabulary for curve fitting.
-/
namespace Verif.Spec

/-- Sum of the squared residuals of `y = g x` over the data points. -/
noncomputable def sse (p : List (ℝ × ℝ)) (g : ℝ → ℝ) : ℝ := (p.map fun q => (q.2 - g q.1) ^ 2).sum

/-- The data contain two different abscissae. -/
def TwoX (p : List (ℝ × ℝ)) : Prop := ∃ q ∈ p, ∃ r ∈ p, q.1 ≠ r.1

/-- The three functions are linearly independent on the data. -/
def Indep3 (p : List (ℝ × ℝ)) (f0 f1 f2 : ℝ → ℝ) : Prop :=
  ∀ a b c : ℝ, (∀ q ∈ p, a * f0 q.1 + b * f1 q.1 + c * f2 q.1 = 0) → a = 0 ∧ b = 0 ∧ c = 0

end Verif.Spec
