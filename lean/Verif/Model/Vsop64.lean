import Verif.Go.FloatExpr
import Verif.Model.Vsop
/-
Heliocentric positions by VSOP87 (v3/planetposition/planetposition.go) in double precision.  The loops are relations by recursion on the list of terms, every
step an expression of the code.  `red` is PMod of package unit with the period 2π.
-/
namespace Verif.Model.Vsop64

open Verif.Go.F64 Verif.Go.F64.Ex Verif.Model.Vsop

/-- `τ`, variable 0 is jde − J2000.  v3/planetposition/planetposition.go:199-200, v3/base/julian.go:52-60. -/
def tau : Ex := v 0 / q 36525 1 * q 1 10

/-- Variables from a list. -/
def at5 (a b c d e : ℝ) : ℕ → ℝ
  | 0 => a
  | 1 => b
  | 2 => c
  | 3 => d
  | _ => e

/-- One round of the inner loop; the variables are cf[x], a, b, c and τ.  v3/planetposition/planetposition.go:208. -/
def term : Ex := v 0 + v 1 * cos (v 2 + v 3 * v 4)

/-- `Series l τ terms x`: the inner loop, which takes the last term first, may leave x in cf[x].  v3/planetposition/planetposition.go:204-209. -/
def Series (l : Trig) (τ : ℝ) : List (Term ℝ) → ℝ → Prop
  | [], x => x = 0
  | t :: ts, x => ∃ y, Series l τ ts y ∧ Run l (at5 y t.a t.b t.c τ) term x

/-- One round of `base.Horner`; the variables are y, x and the coefficient.  v3/base/math.go:25-27. -/
def hstep : Ex := v 0 * v 1 + v 2

/-- `base.Horner` of a list of coefficients.  v3/base/math.go:20-29. -/
def Hor (l : Trig) (τ : ℝ) : List ℝ → ℝ → Prop
  | [], y => y = 0
  | [k], y => y = k
  | k :: ks, y => ∃ z, Hor l τ ks z ∧ Run l (at5 z τ k 0 0) hstep y

/-- The closure `sum`.  v3/planetposition/planetposition.go:202-212. -/
def Sum (l : Trig) (τ : ℝ) (c : Coeff ℝ) (y : ℝ) : Prop :=
  ∃ cf : ℕ → ℝ, (∀ x < 6, Series l τ (c x) (cf x)) ∧ Hor l τ ((List.range 6).map cf) y

/-- `Position2000`.  v3/planetposition/planetposition.go:198-217. -/
def Position2000 (l : Trig) (red : ℝ → ℝ) (w : V87Planet ℝ) (jde L B R : ℝ) : Prop :=
  ∃ τ s, Run l (fun _ => fl (jde - 2451545)) tau τ ∧ Sum l τ w.l s ∧ L = red s ∧ Sum l τ w.b B ∧ Sum l τ w.r R

end Verif.Model.Vsop64
