import Verif.Model.Kepler64
/-
Lagrange's interpolation (v3/interp/interp.go) in double precision.  The table is given as its length and two indexing functions.
-/
namespace Verif.Model.Lagrange64

open Verif.Go.F64 Verif.Model.Kepler64

/-- One round of the inner loop.  v3/interp/interp.go:421-424. -/
noncomputable def factor (x : ℝ) (X : ℕ → ℝ) (i : ℕ) (prod : ℝ) (j : ℕ) : ℝ :=
  if i ≠ j then fl (prod * fl (fl (x - X j) / fl (X i - X j))) else prod

/-- `prod` after the inner loop.  v3/interp/interp.go:419-425. -/
noncomputable def prod (x : ℝ) (n : ℕ) (X : ℕ → ℝ) (i : ℕ) : ℝ := (List.range n).foldl (factor x X i) 1

/-- `Rows x n X Y k s`: after k rounds of the outer loop `sum` may be s; the compiler may fuse the product and the sum.  v3/interp/interp.go:416-427. -/
def Rows (x : ℝ) (n : ℕ) (X Y : ℕ → ℝ) : ℕ → ℝ → Prop
  | 0, s => s = 0
  | k + 1, s => ∃ s', Rows x n X Y k s' ∧ MulAdd s' (Y k) (prod x n X k) s

/-- `Lagrange`.  v3/interp/interp.go:414-429. -/
def Lagrange (x : ℝ) (n : ℕ) (X Y : ℕ → ℝ) (y : ℝ) : Prop := Rows x n X Y n y

end Verif.Model.Lagrange64
