import Verif.Go.ExtMath
import Verif.Go.Int
import Verif.Model.Rise
import Mathlib.Analysis.SpecialFunctions.Log.Base
import Mathlib.Analysis.SpecialFunctions.Pow.Real
/-
Models of packages illum, moonillum, stellar, semidiameter, of base.Illuminated and base.Limb, and of the mean node and perigee of
package moonposition.  Exact real arithmetic.  A quotient of integer constants in the code is Go's integer quotient `quo`.
-/
set_option linter.dupNamespace false

namespace Verif.Model

open Real Verif.Go

/-- `math.Log10`. -/
noncomputable def log10 (x : ℝ) : ℝ := logb 10 x

/-- `base.Illuminated`.  v3/base/phase.go:17-20. -/
noncomputable def Illuminated (i : ℝ) : ℝ := (1 + cos i) * 0.5

open Classical in
/-- `base.Limb`.  v3/base/phase.go:28-38. -/
noncomputable def Limb (α δ α0 δ0 : ℝ) : ℝ :=
  let χ := atan2 (cos δ0 * sin (α0 - α)) (sin δ0 * cos δ - cos δ0 * sin δ * cos (α0 - α))
  if χ < 0 then χ + 2 * π else χ

namespace Illum

/-- `PhaseAngle`.  v3/illum/illum.go:23-25. -/
noncomputable def PhaseAngle (r Δ R : ℝ) : ℝ := arccos ((r * r + Δ * Δ - R * R) / (2 * r * Δ))

/-- `Fraction`.  v3/illum/illum.go:31-35. -/
noncomputable def Fraction (r Δ R : ℝ) : ℝ :=
  let s := r + Δ
  (s * s - R * R) / (4 * r * Δ)

/-- `PhaseAngle2`.  v3/illum/illum.go:42-45. -/
noncomputable def PhaseAngle2 (L B R L0 R0 Δ : ℝ) : ℝ := arccos ((R - R0 * cos B * cos (L - L0)) / Δ)

/-- `PhaseAngle3`.  v3/illum/illum.go:52-57. -/
noncomputable def PhaseAngle3 (L B x y z Δ : ℝ) : ℝ := arccos ((x * cos B * cos L + y * cos B * sin L + z * sin B) / Δ)

/-- `FractionVenus`.  v3/illum/illum.go:62-71. -/
noncomputable def FractionVenus (jde : ℝ) : ℝ :=
  let p := deg
  let T := J2000Century jde
  let V := 261.51 * p + 22518.443 * p * T
  let M := 177.53 * p + 35999.05 * p * T
  let N := 50.42 * p + 58517.811 * p * T
  let W := V + 1.91 * p * sin M + 0.78 * p * sin N
  let Δ := √(1.52321 + 1.44666 * cos W)
  let s := 0.72333 + Δ
  (s * s - 1) / 2.89332 / Δ

/-- `Angle.Deg`. -/
noncomputable def toDeg (a : ℝ) : ℝ := a * 180 / π

/-- `Saturn`.  v3/illum/illum.go:113-117. -/
noncomputable def Saturn (r Δ B ΔU : ℝ) : ℝ :=
  let s := |sin B|;
  -8.68 + 5 * log10 (r * Δ) + 0.044 * |toDeg ΔU| - 2.6 * s + 1.25 * s * s

/-- `Saturn84`, on extended numbers because of its divisor.  v3/illum/illum.go:183-187. -/
noncomputable def Saturn84 (r Δ B ΔU : ℝ) : EF :=
  let s := |sin B|
  EF.fin (-8.88 + 5 * log10 (r * Δ)) + EF.fin 0.044 / EF.fin (abs (toDeg ΔU)) - EF.fin (2.6 * s) + EF.fin (1.25 * s * s)

end Illum

namespace Moonillum

/-- `cψEq`.  v3/moonillum/moonillum.go:28-33. -/
noncomputable def cψEq (α α0 δ δ0 : ℝ) : ℝ := sin δ0 * sin δ + cos δ0 * cos δ * cos (α0 - α)

/-- `pa`.  v3/moonillum/moonillum.go:36-41. -/
noncomputable def pa (Δ R cψ : ℝ) : ℝ :=
  let sψ := sin (arccos cψ)
  atan2 (R * sψ) (Δ - R * cψ)

/-- `PhaseAngleEq`.  v3/moonillum/moonillum.go:23-25. -/
noncomputable def PhaseAngleEq (α δ Δ α0 δ0 R : ℝ) : ℝ := pa Δ R (cψEq α α0 δ δ0)

/-- `PhaseAngleEq2`.  v3/moonillum/moonillum.go:49-51. -/
noncomputable def PhaseAngleEq2 (α δ α0 δ0 : ℝ) : ℝ := arccos (-cψEq α α0 δ δ0)

/-- `cψEcl`.  v3/moonillum/moonillum.go:63-66. -/
noncomputable def cψEcl (lam β lam0 : ℝ) : ℝ := cos β * cos (lam - lam0)

/-- `PhaseAngleEcl`.  v3/moonillum/moonillum.go:58-60. -/
noncomputable def PhaseAngleEcl (lam β Δ lam0 R : ℝ) : ℝ := pa Δ R (cψEcl lam β lam0)

/-- `PhaseAngleEcl2`.  v3/moonillum/moonillum.go:74-76. -/
noncomputable def PhaseAngleEcl2 (lam β lam0 : ℝ) : ℝ := arccos (-cψEcl lam β lam0)

/-- `PhaseAngle3`.  v3/moonillum/moonillum.go:81-96. -/
noncomputable def PhaseAngle3 (jde : ℝ) : ℝ :=
  let T := J2000Century jde
  let D := mod1 (deg * hornerR T [297.8501921, 445267.1114034, -0.0018819, (quo 1 545868 : ℤ), (quo (-1) 113065000 : ℤ)])
  let M := mod1 (deg * hornerR T [357.5291092, 35999.0502909, -0.0001535, (quo 1 24490000 : ℤ)])
  let M' := mod1 (deg * hornerR T [134.9633964, 477198.8675055, 0.0087414, (quo 1 69699 : ℤ), (quo (-1) 14712000 : ℤ)])
  π - D + deg * series sin [(-6.289, M'), (2.1, M), (-1.274, 2 * D - M'), (-0.658, 2 * D), (-0.214, 2 * M'), (-0.11, D)]

end Moonillum

namespace Moonposition

/-- `Node`.  v3/moonposition/moonposition.go:251-254. -/
noncomputable def Node (jde : ℝ) : ℝ :=
  mod1 (deg * hornerR (J2000Century jde) [125.0445479, -1934.1362891, 0.0020754, (quo 1 467441 : ℤ), (quo (-1) 60616000 : ℤ)])

/-- `Perigee`.  v3/moonposition/moonposition.go:257-260. -/
noncomputable def Perigee (jde : ℝ) : ℝ :=
  mod1 (deg * hornerR (J2000Century jde) [83.3532465, 4069.0137287, -0.01032, (quo (-1) 80053 : ℤ), (quo 1 18999000 : ℤ)])

end Moonposition

namespace Stellar

/-- `Sum`.  v3/stellar/stellar.go:14-17. -/
noncomputable def Sum (m1 m2 : ℝ) : ℝ :=
  let x := 0.4 * (m2 - m1)
  m2 - 2.5 * log10 ((10 : ℝ) ^ x + 1)

/-- `SumN`.  v3/stellar/stellar.go:20-26.  (For no argument the code takes the logarithm of 0; the model covers nonempty lists.) -/
noncomputable def SumN (m : List ℝ) : ℝ := -2.5 * log10 (m.foldl (fun s mi => s + (10 : ℝ) ^ (-0.4 * mi)) 0)

/-- `Ratio`.  v3/stellar/stellar.go:31-34. -/
noncomputable def Ratio (m1 m2 : ℝ) : ℝ :=
  let x := 0.4 * (m2 - m1)
  (10 : ℝ) ^ x

/-- `Difference`.  v3/stellar/stellar.go:38-40. -/
noncomputable def Difference (ratio : ℝ) : ℝ := 2.5 * log10 ratio

/-- `AbsoluteByParallax`; the parallax in seconds of arc.  v3/stellar/stellar.go:45-47. -/
noncomputable def AbsoluteByParallax (m πsec : ℝ) : ℝ := m + 5 + 5 * log10 πsec

/-- `AbsoluteByDistance`.  v3/stellar/stellar.go:52-54. -/
noncomputable def AbsoluteByDistance (m d : ℝ) : ℝ := m + 5 - 5 * log10 d

end Stellar

namespace Semidiameter

/-- One second of arc. -/
noncomputable def arcsec : ℝ := π / 180 / 3600

/-- `base.AU`, an integer constant.  v3/base/const.go:12. -/
def AU : ℤ := 149597870

/-- `Moon`.  v3/semidiameter/semidiameter.go:29. -/
noncomputable def Moon : ℝ := ((quo 358473400 AU : ℤ) : ℝ) * arcsec

/-- `SaturnEquatorial`, `SaturnPolar`.  v3/semidiameter/semidiameter.go:24-25. -/
noncomputable def SaturnEquatorial : ℝ := 82.73 * arcsec
noncomputable def SaturnPolar : ℝ := 73.82 * arcsec

/-- `Semidiameter`.  v3/semidiameter/semidiameter.go:35-37. -/
noncomputable def Semidiameter (s0 Δ : ℝ) : ℝ := s0 / Δ

/-- `SaturnApparentPolar`.  v3/semidiameter/semidiameter.go:45-50. -/
noncomputable def SaturnApparentPolar (Δ B : ℝ) : ℝ :=
  let k := SaturnPolar / SaturnEquatorial
  let k := 1 - k * k
  SaturnEquatorial * (√(1 - k * cos B * cos B) / Δ)

/-- `parallax.Horizontal`.  v3/parallax/parallax.go:16-27. -/
noncomputable def Horizontal (Δ : ℝ) : ℝ := 8.794 * arcsec / Δ

/-- `MoonTopocentric`.  v3/semidiameter/semidiameter.go:59-70. -/
noncomputable def MoonTopocentric (Δ δ H ρs ρc : ℝ) : ℝ :=
  let k := 0.272481
  let sπ := sin (Horizontal Δ)
  let A := cos δ * sin H
  let B := cos δ * cos H - ρc * sπ
  let C := sin δ - ρs * sπ
  let q := √(A * A + B * B + C * C)
  k / q * sπ

/-- `MoonTopocentric2`.  v3/semidiameter/semidiameter.go:77-79. -/
noncomputable def MoonTopocentric2 (Δ h : ℝ) : ℝ := Moon * ((1 + sin h * sin (Horizontal Δ)) / Δ)

/-- `AsteroidDiameter`.  v3/semidiameter/semidiameter.go:85-87. -/
noncomputable def AsteroidDiameter (H A : ℝ) : ℝ := (10 : ℝ) ^ (3.12 - 0.2 * H - 0.5 * log10 A)

end Semidiameter

end Verif.Model
