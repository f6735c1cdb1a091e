import Verif.Model.Illum
import Verif.Model.Kepler64
/-
Stellar magnitudes (v3/stellar/stellar.go) in double precision.
-/
namespace Verif.Model.Stellar64

open Verif.Go.F64 Verif.Model.Kepler64

/-- `math.Pow(10, ·)` and `math.Log10`. -/
structure Fns where
  pow10 : ℝ → ℝ
  log10 : ℝ → ℝ

/-- The accuracy assumed: 10⁻¹⁴ relative for the power; 10⁻¹⁵, relative or absolute, for the logarithm. -/
structure Fns.Ok (f : Fns) : Prop where
  pow : ∀ x : ℝ, |x| ≤ 50 → |f.pow10 x - (10 : ℝ) ^ x| ≤ 1e-14 * (10 : ℝ) ^ x
  log : ∀ x : ℝ, 0 < x → |f.log10 x - Real.logb 10 x| ≤ 1e-15 * (1 + |Real.logb 10 x|)

/-- `x`.  v3/stellar/stellar.go:15,32. -/
noncomputable def expo10 (m1 m2 : ℝ) : ℝ := fl (fl 0.4 * fl (m2 - m1))

/-- `Sum`: what it may return.  v3/stellar/stellar.go:14-17. -/
def Sum (f : Fns) (m1 m2 s : ℝ) : Prop := MulSub m2 2.5 (f.log10 (fl (f.pow10 (expo10 m1 m2) + 1))) s

/-- The loop of `SumN` from a sum s.  v3/stellar/stellar.go:21-24. -/
noncomputable def flux (f : Fns) (s : ℝ) (m : List ℝ) : ℝ := m.foldl (fun s mi => fl (s + f.pow10 (fl (fl (-0.4) * mi)))) s

/-- `SumN`.  v3/stellar/stellar.go:20-26. -/
noncomputable def SumN (f : Fns) (m : List ℝ) : ℝ := fl (-2.5 * f.log10 (flux f 0 m))

/-- `Ratio`.  v3/stellar/stellar.go:31-34. -/
noncomputable def Ratio (f : Fns) (m1 m2 : ℝ) : ℝ := f.pow10 (expo10 m1 m2)

/-- `Difference`.  v3/stellar/stellar.go:38-40. -/
noncomputable def Difference (f : Fns) (ratio : ℝ) : ℝ := fl (2.5 * f.log10 ratio)

end Verif.Model.Stellar64
