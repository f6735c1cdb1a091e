import Verif.Go.FloatExpr
import Verif.Model.Angle
/-
The separations of package angle (v3/angle/angle.go) in double precision.  Angles in radians; variables 0 to 3 are r1, d1, r2, d2.  Expressions are those of
the code, operation by operation; a function is the relation between its arguments and what it may return.
-/
namespace Verif.Model.Sep64

open Verif.Go.F64 Verif.Go.F64.Ex

/-- math.Asin, math.Acos, math.Atan2 and math.Hypot. -/
structure Inv where
  asin : ℝ → ℝ
  acos : ℝ → ℝ
  atan2 : ℝ → ℝ → ℝ
  hypot : ℝ → ℝ → ℝ

/-- What is assumed of them.  (The library computes Asin and Acos from the square root of 1 − x², with an error that may exceed the last digit many times.) -/
structure Inv.Ok (f : Inv) : Prop where
  asin : ∀ x, |x| ≤ 1 → |f.asin x - Real.arcsin x| ≤ 1e-12
  asin_zero : f.asin 0 = 0
  acos : ∀ x, |x| ≤ 1 → |f.acos x - Real.arccos x| ≤ 1e-12
  atan2 : ∀ y x, 0 ≤ y → |f.atan2 y x - Verif.Go.atan2 y x| ≤ 1e-15
  hypot : ∀ x y, |f.hypot x y - Angle.hypot x y| ≤ 1e-15 * Angle.hypot x y

/-- The four arguments. -/
def args (r1 d1 r2 d2 : ℝ) : ℕ → ℝ
  | 0 => r1
  | 1 => d1
  | 2 => r2
  | _ => d2

/-- `cd` of `Sep`.  v3/angle/angle.go:29-31. -/
def cd : Ex := sin (v 1) * sin (v 3) + cos (v 1) * cos (v 3) * cos (v 0 - v 2)

/-- `Sep`; t is base.CosSmallAngle.  v3/angle/angle.go:28-37. -/
def Sep (l : Trig) (f : Inv) (t r1 d1 r2 d2 out : ℝ) : Prop :=
  ∃ c, Run l (args r1 d1 r2 d2) cd c ∧
    ((c < t ∧ out = f.acos c) ∨
     (¬ c < t ∧ ∃ x y, Run l (args r1 d1 r2 d2) ((v 2 - v 0) * cos (v 1)) x ∧ Run l (args r1 d1 r2 d2) (v 3 - v 1) y ∧ out = f.hypot x y))

/-- `base.Hav`.  v3/base/math.go:20-23. -/
def hav (a : Ex) : Ex := q 5 10 * (q 1 1 - cos a)

/-- The argument of the square root in `SepHav`.  v3/angle/angle.go:126-127. -/
def havSum : Ex := hav (v 3 - v 1) + cos (v 1) * cos (v 3) * hav (v 2 - v 0)

/-- `SepHav`; math.Sqrt is rounded correctly.  v3/angle/angle.go:124-128. -/
def SepHav (l : Trig) (f : Inv) (r1 d1 r2 d2 out : ℝ) : Prop :=
  ∃ h, Run l (args r1 d1 r2 d2) havSum h ∧ out = fl (2 * f.asin (fl (Real.sqrt h)))

/-- `x` of `SepPauwels`.  v3/angle/angle.go:137. -/
def px : Ex := cos (v 1) * sin (v 3) - sin (v 1) * cos (v 3) * cos (v 2 - v 0)

/-- `y` of `SepPauwels`.  v3/angle/angle.go:138. -/
def py : Ex := cos (v 3) * sin (v 2 - v 0)

/-- `z` of `SepPauwels`.  v3/angle/angle.go:139. -/
def pz : Ex := sin (v 1) * sin (v 3) + cos (v 1) * cos (v 3) * cos (v 2 - v 0)

/-- `SepPauwels`.  v3/angle/angle.go:133-141. -/
def SepPauwels (l : Trig) (f : Inv) (r1 d1 r2 d2 out : ℝ) : Prop :=
  ∃ x y z, Run l (args r1 d1 r2 d2) px x ∧ Run l (args r1 d1 r2 d2) py y ∧ Run l (args r1 d1 r2 d2) pz z ∧ out = f.atan2 (f.hypot x y) z

end Verif.Model.Sep64
