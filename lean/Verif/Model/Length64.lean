import Verif.Model.Kepler64
import Mathlib.Analysis.SpecialFunctions.Sqrt
import Mathlib.Analysis.Real.Pi.Bounds
/-
The length of an ellipse by `Length4` (v3/elliptic/elliptic.go) in double precision.  `none` is NaN; fusing is allowed across
assignments, as in the language.
-/
namespace Verif.Model.Length64

open Verif.Go.F64 Verif.Model.Kepler64

/-- `b` up to the factor a: the square root of 1 − e². `none` is the NaN of a negative argument.  v3/elliptic/elliptic.go:235. -/
def Root (e : ℝ) (s : Option ℝ) : Prop := ∃ h, MulSub 1 e e h ∧ s = if h < 0 then none else some (fl (Real.sqrt h))

/-- `m`.  v3/elliptic/elliptic.go:235-236. -/
def M (a e : ℝ) (m : Option ℝ) : Prop :=
  ∃ s, Root e s ∧ match s with
    | none => m = none
    | some s => ∃ n d, MulSub a a s n ∧ MulAdd a a s d ∧ m = some (fl (n / d))

/-- The variables of the loop.  v3/elliptic/elliptic.go:238-242. -/
structure St where
  sum0 : Option ℝ
  sum1 : Option ℝ
  term : Option ℝ
  nf : ℝ
  df : ℝ

/-- a + b·c, fused or not, NaN if one of them is. -/
def Sum3 (a b c x : Option ℝ) : Prop :=
  match a, b, c with
  | some a, some b, some c => ∃ y, MulAdd a b c y ∧ x = some y
  | _, _, _ => x = none

/-- `m2`.  v3/elliptic/elliptic.go:237. -/
noncomputable def m2 (m : Option ℝ) : Option ℝ := m.map fun x => fl (x * x)

/-- The variables before the loop.  v3/elliptic/elliptic.go:238-242. -/
def Start (h : Option ℝ) (s : St) : Prop :=
  s.sum0 = some 1 ∧ s.term = (h.map fun x => fl (x * 0.25)) ∧ Sum3 (some 1) h (some 0.25) s.sum1 ∧ s.nf = -1 ∧ s.df = 2

/-- The factor of `term` in one round.  v3/elliptic/elliptic.go:246. -/
noncomputable def ratio (nf df h : ℝ) : ℝ := fl (fl (fl (nf * nf) * h) / fl (df * df))

/-- One round.  v3/elliptic/elliptic.go:244-248. -/
def Round (h : Option ℝ) (s t : St) : Prop :=
  t.nf = fl (s.nf + 2) ∧ t.df = fl (s.df + 2) ∧ t.sum0 = s.sum1 ∧
  t.term = (s.term.bind fun x => h.map fun h => fl (x * ratio t.nf t.df h)) ∧
  Sum3 s.sum1 s.term (h.map (ratio t.nf t.df)) t.sum1

/-- The condition of the loop, which NaN always fulfils.  v3/elliptic/elliptic.go:243. -/
def Goes (s : St) : Prop := ¬ ∃ x, s.sum0 = some x ∧ s.sum1 = some x

/-- `After h n s`: s may be the state after n rounds. -/
def After (h : Option ℝ) : ℕ → St → Prop
  | 0, s => Start h s
  | n + 1, s => ∃ s', After h n s' ∧ Goes s' ∧ Round h s' s

/-- `Length4 a e n L`: the function may return L after n rounds.  v3/elliptic/elliptic.go:234-251. -/
def Length4 (a e : ℝ) (n : ℕ) (L : ℝ) : Prop :=
  ∃ m s x y, M a e m ∧ After (m2 m) n s ∧ ¬ Goes s ∧ m = some x ∧ s.sum0 = some y ∧
    L = fl (fl (fl (fl (2 * Real.pi) * a) * y) / fl (1 + x))

end Verif.Model.Length64
