import Verif.Model.Kepler64
/-
`Len3.Zero` and `Len3.Extremum` (v3/interp/interp.go) in double precision.
-/
namespace Verif.Model.Zero64

open Verif.Go.F64 Verif.Model.Kepler64

/-- The fields of Len3 which they use. -/
structure Len3 where
  y1 : ℝ
  c : ℝ
  abSum : ℝ
  xSum : ℝ
  xDiff : ℝ

/-- `NewLen3` for a table of three values and x1 ≠ x3.  v3/interp/interp.go:57-78. -/
noncomputable def NewLen3 (x1 x3 y0 y1 y2 : ℝ) : Len3 :=
  let a := fl (y1 - y0)
  let b := fl (y2 - y1)
  ⟨y1, fl (b - a), fl (a + b), fl (x3 + x1), fl (x3 - x1)⟩

/-- Division; `none` for an infinity or NaN. -/
noncomputable def quot (x y : ℝ) : Option ℝ := if y = 0 then none else some (fl (x / y))

/-- The weak step; `none` for an infinity or NaN.  v3/interp/interp.go:192. -/
def Weak (d : Len3) (n0 : ℝ) (r : Option ℝ) : Prop := ∃ D, MulAdd d.abSum d.c n0 D ∧ r = quot (fl (-2 * d.y1)) D

/-- The strong step; either product of the numerator may be fused with the sum.  v3/interp/interp.go:187. -/
def Strong (d : Len3) (n0 : ℝ) (r : Option ℝ) : Prop :=
  ∃ s N D, MulAdd d.abSum d.c n0 s ∧
    (N = fl (fl (2 * d.y1) + fl (n0 * s)) ∨ N = fl (2 * d.y1 + fl (n0 * s)) ∨ N = fl (fl (2 * d.y1) + n0 * s)) ∧
    MulAdd d.abSum (fl (2 * d.c)) n0 D ∧ r = (quot N D).map fun g => fl (n0 - g)

/-- The test of `iterate`; for n0 = 0 the quotient is infinite or NaN.  v3/interp/interp.go:213. -/
def Near (n0 n1 : ℝ) : Prop := n0 ≠ 0 ∧ |fl (fl (n1 - n0) / n0)| < fl 1e-15

/-- `iterate` with so many rounds left; `none` is failure.  v3/interp/interp.go:207-219. -/
inductive Iter (step : ℝ → Option ℝ → Prop) : ℕ → ℝ → Option ℝ → Prop
  | limit {n0 : ℝ} : Iter step 0 n0 none
  | bad {k : ℕ} {n0 : ℝ} : step n0 none → Iter step (k + 1) n0 none
  | done {k : ℕ} {n0 n1 : ℝ} : step n0 (some n1) → Near n0 n1 → Iter step (k + 1) n0 (some n1)
  | next {k : ℕ} {n0 n1 : ℝ} {r : Option ℝ} : step n0 (some n1) → ¬ Near n0 n1 → Iter step k n1 r → Iter step (k + 1) n0 r

/-- `Zero` returns x without error.  v3/interp/interp.go:182-203. -/
def Zero (d : Len3) (strong : Bool) (x : ℝ) : Prop :=
  ∃ n0 t, Iter (if strong then Strong d else Weak d) 50 0 (some n0) ∧ ¬ (n0 > 1 ∨ n0 < -1) ∧ MulAdd d.xSum d.xDiff n0 t ∧ x = fl (0.5 * t)

/-- `Extremum` returns x and y without error.  v3/interp/interp.go:153-164. -/
def Extremum (d : Len3) (x y : ℝ) : Prop :=
  d.c ≠ 0 ∧ ∃ n t, n = fl (d.abSum / fl (-2 * d.c)) ∧ ¬ (n < -1 ∨ n > 1) ∧ MulAdd d.xSum d.xDiff n t ∧ x = fl (0.5 * t) ∧
    y = fl (d.y1 - fl (fl (d.abSum * d.abSum) / fl (8 * d.c)))

end Verif.Model.Zero64
