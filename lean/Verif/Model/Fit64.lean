import Verif.Go.FloatExpr
/-
Package fit (v3/fit/fit.go) in double precision: Linear, CorrelationCoefficient, Func1.  The loop adds to several sums in one pass; here each sum is its own
relation, by recursion on the points in the same order.  A division by zero gives `none` (Go returns an infinity or NaN), and so does the square root of a negative number.
-/
namespace Verif.Model.Fit64

open Verif.Go.F64 Verif.Go.F64.Ex

/-- Variables from a list. -/
def at3 (a b c : ℝ) : ℕ → ℝ
  | 0 => a
  | 1 => b
  | _ => c

/-- Variables from a list. -/
def at6 (a b c d e f : ℝ) : ℕ → ℝ
  | 0 => a
  | 1 => b
  | 2 => c
  | 3 => d
  | 4 => e
  | _ => f

/-- `Acc l g s p r`: `s += g(x, y)` over the points p may leave r; variables 1 and 2 are x and y.  v3/fit/fit.go:15-22, 34-42, 114-119. -/
def Acc (l : Trig) (g : Ex) : ℝ → List (ℝ × ℝ) → ℝ → Prop
  | s, [], r => r = s
  | s, p :: ps, r => ∃ s', Run l (at3 s p.1 p.2) (v 0 + g) s' ∧ Acc l g s' ps r

/-- The quotient of two floats. -/
noncomputable def quo (x y : ℝ) : Option ℝ := if y = 0 then none else some (fl (x / y))

/-- `d`; the variables are n, sx, sy, sx2, sxy, sy2.  v3/fit/fit.go:24. -/
def det : Ex := v 0 * v 3 - v 1 * v 1

/-- The first numerator.  v3/fit/fit.go:26, 45. -/
def numA : Ex := v 0 * v 4 - v 1 * v 2

/-- The second numerator.  v3/fit/fit.go:27. -/
def numB : Ex := v 2 * v 3 - v 1 * v 4

/-- `Linear`.  v3/fit/fit.go:13-29. -/
def Linear (l : Trig) (p : List (ℝ × ℝ)) (a b : Option ℝ) : Prop :=
  ∃ sx sy sx2 sxy d na nb, Acc l (v 1) 0 p sx ∧ Acc l (v 2) 0 p sy ∧ Acc l (v 1 * v 1) 0 p sx2 ∧ Acc l (v 1 * v 2) 0 p sxy ∧
    Run l (at6 p.length sx sy sx2 sxy 0) det d ∧ Run l (at6 p.length sx sy sx2 sxy 0) numA na ∧ Run l (at6 p.length sx sy sx2 sxy 0) numB nb ∧
    a = quo na d ∧ b = quo nb d

/-- The second factor under the root.  v3/fit/fit.go:45. -/
def det2 : Ex := v 0 * v 5 - v 2 * v 2

/-- `CorrelationCoefficient`.  v3/fit/fit.go:32-46. -/
def CorrelationCoefficient (l : Trig) (p : List (ℝ × ℝ)) (r : Option ℝ) : Prop :=
  ∃ sx sy sx2 sy2 sxy d d2 na, Acc l (v 1) 0 p sx ∧ Acc l (v 2) 0 p sy ∧ Acc l (v 1 * v 1) 0 p sx2 ∧ Acc l (v 2 * v 2) 0 p sy2 ∧ Acc l (v 1 * v 2) 0 p sxy ∧
    Run l (at6 p.length sx sy sx2 sxy sy2) det d ∧ Run l (at6 p.length sx sy sx2 sxy sy2) det2 d2 ∧ Run l (at6 p.length sx sy sx2 sxy sy2) numA na ∧
    r = if d < 0 ∨ d2 < 0 then none else quo na (fl (fl (Real.sqrt d) * fl (Real.sqrt d2)))

/-- `Func1`: the points given are (f(x), y).  v3/fit/fit.go:111-121. -/
def Func1 (l : Trig) (p : List (ℝ × ℝ)) (a : Option ℝ) : Prop :=
  ∃ syf sf2, Acc l (v 2 * v 1) 0 p syf ∧ Acc l (v 1 * v 1) 0 p sf2 ∧ a = quo syf sf2

end Verif.Model.Fit64
