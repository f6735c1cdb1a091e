import Verif.Go.FloatExpr
/-
The solvers of package kepler (v3/kepler/kepler.go) and iterate.DecimalPlaces (v3/iterate/iterate.go) in double precision.  A function is the relation
between its arguments and what it may return: a product and a sum may be fused or not.  Angles in radians; `unit.Angle.Rad` is the identity.
-/
namespace Verif.Model.Kepler64

open Real Verif.Go.F64

/-- a + b·c as written in one expression: with one rounding or with two. -/
def MulAdd (a b c x : ℝ) : Prop := x = fl (a + fl (b * c)) ∨ x = fl (a + b * c)

/-- a − b·c likewise. -/
def MulSub (a b c x : ℝ) : Prop := x = fl (a - fl (b * c)) ∨ x = fl (a - b * c)

/-- `iterate.DecimalPlaces` after the computation of d, at most n iterations; `none` is the error.  v3/iterate/iterate.go:23-33. -/
inductive Decimal (better : ℝ → ℝ → Prop) (d : ℝ) : ℕ → ℝ → Option ℝ → Prop
  | fail {s : ℝ} : Decimal better d 0 s none
  | found {n : ℕ} {s x : ℝ} : better s x → |fl (x - s)| < d → Decimal better d (n + 1) s (some x)
  | next {n : ℕ} {s x : ℝ} {r : Option ℝ} : better s x → ¬ |fl (x - s)| < d → Decimal better d n x r → Decimal better d (n + 1) s r

/-- The improvement function of `Kepler1`.  v3/kepler/kepler.go:46-48. -/
def step1 (l : Trig) (e M s x : ℝ) : Prop := MulAdd M e (l.sin s) x

/-- The Newton correction (M + e sin E₀ − E₀)/(1 − e cos E₀).  v3/kepler/kepler.go:68-69. -/
def newton (l : Trig) (e M s q : ℝ) : Prop :=
  ∃ a b, MulAdd M e (l.sin s) a ∧ MulSub 1 e (l.cos s) b ∧ q = fl (fl (a - s) / b)

/-- The improvement function of `Kepler2`.  v3/kepler/kepler.go:67-70. -/
def step2 (l : Trig) (e M s x : ℝ) : Prop := ∃ q, newton l e M s q ∧ x = fl (s + q)

/-- The improvement function of `Kepler2b`.  v3/kepler/kepler.go:104-114. -/
noncomputable def clamp (q : ℝ) : ℝ := if q > 0.5 then 0.5 else if q < -0.5 then -0.5 else q
def step2b (l : Trig) (e M s x : ℝ) : Prop := ∃ q, newton l e M s q ∧ x = fl (s + clamp q)

/-- One pass through the loop of `Kepler3`.  v3/kepler/kepler.go:135-141. -/
def pass3 (l : Trig) (e MR E d E' d' : ℝ) : Prop :=
  (∃ M1, MulSub E e (l.sin E) M1 ∧ ((fl (MR - M1) < 0 ∧ E' = fl (E - d)) ∨ (¬ fl (MR - M1) < 0 ∧ E' = fl (E + d)))) ∧ d' = fl (d * 0.5)

/-- The loop of `Kepler3`.  v3/kepler/kepler.go:134-142. -/
inductive Loop3 (l : Trig) (e MR : ℝ) : ℕ → ℝ → ℝ → ℝ → Prop
  | stop {E d : ℝ} : Loop3 l e MR 0 E d E
  | pass {n : ℕ} {E d E' d' r : ℝ} : pass3 l e MR E d E' d' → Loop3 l e MR n E' d' r → Loop3 l e MR (n + 1) E d r

/-- `Kepler3` for a mean anomaly MR = M.Mod1() already reduced to one turn.  v3/kepler/kepler.go:126-146. -/
def Kepler3 (l : Trig) (e MR r : ℝ) : Prop :=
  (fl π < MR → ∃ E, Loop3 l e (fl (fl (2 * π) - MR)) 53 (fl (π * 0.5)) (fl (π * 0.25)) E ∧ r = -E) ∧
  (¬ fl π < MR → Loop3 l e MR 53 (fl (π * 0.5)) (fl (π * 0.25)) r)

end Verif.Model.Kepler64
