import Verif.Go.Angle
import Verif.Model.Iterate
/-
Model of package kepler (v3/kepler/kepler.go).  Exact real arithmetic, angles in radians.
-/
namespace Verif.Model.Kepler

open Verif.Go Real Verif.Model.Iterate

/-- `True` (renamed, `True` is taken in Lean).  v3/kepler/kepler.go:17-20. -/
noncomputable def TrueAnom (E e : ℝ) : ℝ := 2 * arctan (sqrt ((1 + e) / (1 - e)) * tan (E * 0.5))

/-- `Radius`.  v3/kepler/kepler.go:27-30. -/
noncomputable def Radius (E e a : ℝ) : ℝ := a * (1 - e * cos E)

/-- `Kepler1`; `none` is the error.  v3/kepler/kepler.go:45-51. -/
noncomputable def Kepler1 (e M : ℝ) (places : ℤ) : Option ℝ :=
  (DecimalPlaces (fun E0 => M + e * sin E0) M places (places * 5)).1

/-- `Kepler2`.  v3/kepler/kepler.go:66-73. -/
noncomputable def Kepler2 (e M : ℝ) (places : ℤ) : Option ℝ :=
  (DecimalPlaces (fun E0 => E0 + (M + e * sin E0 - E0) / (1 - e * cos E0)) M places places).1

/-- `Kepler2a`.  v3/kepler/kepler.go:84-92. -/
noncomputable def Kepler2a (e M : ℝ) (places : ℤ) : Option ℝ :=
  (DecimalPlaces (fun E0 => E0 + arcsin (sin ((M + e * sin E0 - E0) / (1 - e * cos E0)))) M places (places * 5)).1

/-- The improvement function of `Kepler2b`.  v3/kepler/kepler.go:104-114. -/
noncomputable def step2b (e M E0 : ℝ) : ℝ :=
  let d := (M + e * sin E0 - E0) / (1 - e * cos E0)
  let d := if d > 0.5 then 0.5 else if d < -0.5 then -0.5 else d
  E0 + d

/-- `Kepler2b`.  v3/kepler/kepler.go:103-117. -/
noncomputable def Kepler2b (e M : ℝ) (places : ℤ) : Option ℝ :=
  (DecimalPlaces (step2b e M) M places places).1

/-- The loop of `Kepler3`.  v3/kepler/kepler.go:134-142. -/
noncomputable def kepler3Loop (e MR : ℝ) : ℕ → ℝ → ℝ → ℝ
  | 0, E0, _ => E0
  | n + 1, E0, d =>
    let M1 := E0 - e * sin E0
    if MR - M1 < 0 then kepler3Loop e MR n (E0 - d) (d * 0.5) else kepler3Loop e MR n (E0 + d) (d * 0.5)

/-- `Kepler3`.  v3/kepler/kepler.go:124-147. -/
noncomputable def Kepler3 (e M : ℝ) : ℝ :=
  let MR := mod1 M
  if MR > π then -(kepler3Loop e (2 * π - MR) 53 (π * 0.5) (π * 0.25))
  else kepler3Loop e MR 53 (π * 0.5) (π * 0.25)

/-- `Kepler4`.  v3/kepler/kepler.go:156-159. -/
noncomputable def Kepler4 (e M : ℝ) : ℝ := atan2 (sin M) (cos M - e)

end Verif.Model.Kepler
