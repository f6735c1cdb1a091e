import Verif.Model.Solstice
import Verif.Model.Solar
/-
Model of package solstice, the functions using VSOP87 (exact real arithmetic).  The position of the Earth is a parameter, as in the model of package solar.
-/
namespace Verif.Model.Solstice

open Real

open Classical in
/-- The loop of `eq2`, with the function giving the longitude of the Sun; `none` when the fuel is exhausted (the Go loop has no limit).
v3/solstice/solstice.go:193-200. -/
noncomputable def eq2loop (f : ℝ → ℝ) (q : ℝ) : ℕ → ℝ → Option ℝ
  | 0, _ => none
  | n + 1, J0 =>
    let c := 58 * sin (q - f J0)
    let J1 := J0 + c
    if |c| < 0.000005 then some J1 else eq2loop f q n J1

/-- `eq2`.  v3/solstice/solstice.go:191-202. -/
noncomputable def eq2 (y : ℤ) (e : ℝ → ℝ × ℝ × ℝ) (q : ℝ) (c : List ℝ) (fuel : ℕ) : Option ℝ :=
  eq2loop (fun J => (Solar.ApparentVSOP87 e J).1) q fuel (hornerR ((y : ℝ) * 0.001) c)

/-- `March2`.  v3/solstice/solstice.go:133-138. -/
noncomputable def March2 (y : ℤ) (e : ℝ → ℝ × ℝ × ℝ) (fuel : ℕ) : Option ℝ :=
  if y < 1000 then eq2 y e 0 mc0 fuel else eq2 (y - 2000) e 0 mc2 fuel

/-- `June2`.  v3/solstice/solstice.go:146-151. -/
noncomputable def June2 (y : ℤ) (e : ℝ → ℝ × ℝ × ℝ) (fuel : ℕ) : Option ℝ :=
  if y < 1000 then eq2 y e (π / 2) jc0 fuel else eq2 (y - 2000) e (π / 2) jc2 fuel

/-- `September2`.  v3/solstice/solstice.go:165-170. -/
noncomputable def September2 (y : ℤ) (e : ℝ → ℝ × ℝ × ℝ) (fuel : ℕ) : Option ℝ :=
  if y < 1000 then eq2 y e π sc0 fuel else eq2 (y - 2000) e π sc2 fuel

/-- `December2`.  v3/solstice/solstice.go:184-189. -/
noncomputable def December2 (y : ℤ) (e : ℝ → ℝ × ℝ × ℝ) (fuel : ℕ) : Option ℝ :=
  if y < 1000 then eq2 y e (π * 3 / 2) dc0 fuel else eq2 (y - 2000) e (π * 3 / 2) dc2 fuel

end Verif.Model.Solstice
