import Verif.Model.Length64
/-
The approximations `Length1` and `Length2` (v3/elliptic/elliptic.go) in double precision.
-/
namespace Verif.Model.Lengths64

open Verif.Go.F64 Verif.Model.Length64

/-- A product used as a summand: rounded, or exact when it is fused with the sum. -/
def Prod (x y z : ℝ) : Prop := z = fl (x * y) ∨ z = x * y

/-- `Length1`.  v3/elliptic/elliptic.go:183-186. -/
def Length1 (a e L : ℝ) : Prop :=
  ∃ s b1 b2 m q1 q2, Root e (some s) ∧ Prod a s b1 ∧ Prod a s b2 ∧ Prod 3 (fl (a + b1)) m ∧ Prod 3 (fl (a * s)) q1 ∧ Prod 3 a q2 ∧
    L = fl (fl Real.pi * fl (m - fl (Real.sqrt (fl (fl (a + q1) * fl (q2 + b2))))))

/-- `s`, `p` and the three means of `Length2`.  v3/elliptic/elliptic.go:195-200. -/
def Means (a e A G H : ℝ) : Prop :=
  ∃ r b s p, Root e (some r) ∧ Prod a r b ∧ s = fl (a + b) ∧ p = fl (a * fl (a * r)) ∧ A = fl (s * 0.5) ∧ G = fl (Real.sqrt p) ∧ H = fl (fl (2 * p) / s)

/-- `Length2`.  v3/elliptic/elliptic.go:194-202. -/
def Length2 (a e L : ℝ) : Prop :=
  ∃ A G H x y z, Means a e A G H ∧ Prod 21 A x ∧ Prod 2 G y ∧ Prod 3 H z ∧ L = fl (fl (fl Real.pi * fl (fl (x - y) - z)) * 0.125)

end Verif.Model.Lengths64
