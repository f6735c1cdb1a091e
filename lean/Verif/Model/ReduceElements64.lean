import Verif.Model.Precess64
/-
Reduction of orbital elements from one equinox to another (v3/precess/precess.go, v3/elementequinox/elementequinox.go) in double precision.  Expressions are
those of the code, operation by operation; a function is the relation between its arguments and what it may return.  Variables 0 and 1 are the epochs, 2 the
inclination and 3 the node.
-/
namespace Verif.Model.ReduceElements64

open Verif.Go.F64 Verif.Go.F64.Ex Precess64

/-- `math.Acos(x)`; `none` is NaN. -/
noncomputable def acos (f : Sep64.Inv) (x : ℝ) : Option ℝ := if |x| ≤ 1 then some (f.acos x) else none

/-- The argument of the arc cosine.  v3/precess/precess.go:276-279. -/
def X (y : Bool) : Ex := cos (v 2) * cos (η y) + sin (v 2) * sin (η y) * cos (v 3 - Precess64.Pi y)

/-- The first argument of the arc tangent for the node.  v3/precess/precess.go:282. -/
def Ny (y : Bool) : Ex := sin (v 2) * sin (v 3 - Precess64.Pi y)

/-- The second.  v3/precess/precess.go:282. -/
def Nx (y : Bool) : Ex := cos (η y) * sin (v 2) * cos (v 3 - Precess64.Pi y) - sin (η y) * cos (v 2)

/-- The first argument of the arc tangent for the perihelion; negation is written as subtraction from 0, which is exact.  v3/precess/precess.go:285. -/
def Py (y : Bool) : Ex := (q 0 1 - sin (η y)) * sin (v 3 - Precess64.Pi y)

/-- The second.  v3/precess/precess.go:285. -/
def Px (y : Bool) : Ex := sin (v 2) * cos (η y) - cos (v 2) * sin (η y) * cos (v 3 - Precess64.Pi y)

/-- `NewEclipticPrecessor(e0, e1).ReduceElements`.  v3/precess/precess.go:273-287. -/
def Reduce (l : Trig) (f : Sep64.Inv) (e0 e1 inc peri node : ℝ) (inc' : Option ℝ) (peri' node' : ℝ) : Prop :=
  ∃ y : Bool, (y = true ↔ e0 ≠ 2000) ∧ ∃ x n1 n2 p1 p2 w, Run l (Sep64.args e0 e1 inc node) (X y) x ∧ Run l (Sep64.args e0 e1 inc node) (Ny y) n1 ∧
    Run l (Sep64.args e0 e1 inc node) (Nx y) n2 ∧ Run l (Sep64.args e0 e1 inc node) (Py y) p1 ∧ Run l (Sep64.args e0 e1 inc node) (Px y) p2 ∧
    Run l (Sep64.args e0 e1 inc node) (Precess64.Pi y + pp y) w ∧ inc' = acos f x ∧ node' = fl (w + f.atan2 n1 n2) ∧ peri' = fl (peri + f.atan2 p1 p2)

/-- The argument of the arc cosine of `ReduceB1950FK4ToJ2000FK5`; variables 0 and 1 are `_L` and `_J`.  v3/elementequinox/elementequinox.go:54-58. -/
def fX : Ex := cos (v 2) * cos (v 1) - sin (v 2) * sin (v 1) * cos (v 0 + v 3)

/-- Arguments of the arc tangent for the node.  v3/elementequinox/elementequinox.go:59. -/
def fNy : Ex := sin (v 2) * sin (v 0 + v 3)

/-- v3/elementequinox/elementequinox.go:59. -/
def fNx : Ex := cos (v 2) * sin (v 1) + sin (v 2) * cos (v 1) * cos (v 0 + v 3)

/-- Arguments of the arc tangent for the perihelion.  v3/elementequinox/elementequinox.go:62. -/
def fPy : Ex := sin (v 1) * sin (v 0 + v 3)

/-- v3/elementequinox/elementequinox.go:62. -/
def fPx : Ex := sin (v 2) * cos (v 1) + cos (v 2) * sin (v 1) * cos (v 0 + v 3)

/-- `ReduceB1950FK4ToJ2000FK5`; L, J and L' are the package variables and `red` is Angle.Mod1, both from the unit package.
v3/elementequinox/elementequinox.go:45-64. -/
def ReduceFK4 (l : Trig) (f : Sep64.Inv) (red : ℝ → ℝ) (L J L' inc peri node : ℝ) (inc' : Option ℝ) (peri' node' : ℝ) : Prop :=
  ∃ x n1 n2 p1 p2, Run l (Sep64.args L J inc node) fX x ∧ Run l (Sep64.args L J inc node) fNy n1 ∧ Run l (Sep64.args L J inc node) fNx n2 ∧
    Run l (Sep64.args L J inc node) fPy p1 ∧ Run l (Sep64.args L J inc node) fPx p2 ∧
    inc' = acos f x ∧ node' = red (fl (f.atan2 n1 n2 - L')) ∧ peri' = red (fl (peri + f.atan2 p1 p2))

end Verif.Model.ReduceElements64
