import Verif.Model.Illum
/-
Model of package parallax.  Exact real arithmetic.  The apparent sidereal time at Greenwich θ0 (as an angle), which the code obtains
from sidereal.Apparent(jde), and the parallax constants, which TopocentricEcliptical obtains from globe, are arguments.
-/
namespace Verif.Model.Parallax

open Real Verif.Go

/-- `Horizontal`.  v3/parallax/parallax.go:16-27. -/
noncomputable def Horizontal (Δ : ℝ) : ℝ := Semidiameter.Horizontal Δ

/-- `Topocentric`.  v3/parallax/parallax.go:37-50.  `RA.Add` reduces to [0, 2π). -/
noncomputable def Topocentric (α δ Δ ρs ρc L θ0 : ℝ) : ℝ × ℝ :=
  let par := Horizontal Δ
  let H := mod1 (θ0 - L - α)
  let sπ := sin par
  let Δα := atan2 (-ρc * sπ * sin H) (cos δ - ρc * sπ * cos H)
  (mod1 (α + Δα), atan2 ((sin δ - ρs * sπ) * cos Δα) (cos δ - ρc * sπ * cos H))

/-- `Topocentric2`.  v3/parallax/parallax.go:57-66. -/
noncomputable def Topocentric2 (α δ Δ ρs ρc L θ0 : ℝ) : ℝ × ℝ :=
  let par := Horizontal Δ
  let H := mod1 (θ0 - L - α)
  (-(par * (ρc * sin H / cos δ)), -(par * (ρs * cos δ - ρc * cos H * sin δ)))

/-- `Topocentric3`.  v3/parallax/parallax.go:73-87. -/
noncomputable def Topocentric3 (α δ Δ ρs ρc L θ0 : ℝ) : ℝ × ℝ :=
  let par := Horizontal Δ
  let H := mod1 (θ0 - L - α)
  let sπ := sin par
  let A := cos δ * sin H
  let B := cos δ * cos H - ρc * sπ
  let C := sin δ - ρs * sπ
  let q := √(A * A + B * B + C * C)
  (atan2 A B, arcsin (C / q))

open Classical in
/-- `TopocentricEcliptical`, after the parallax constants S, C; θ is the sidereal time as an angle.  v3/parallax/parallax.go:100-113. -/
noncomputable def TopocentricEcliptical (l β s S C ε θ par : ℝ) : ℝ × ℝ × ℝ :=
  let sπ := sin par
  let N := cos l * cos β - C * sπ * cos θ
  let l' := atan2 (sin l * cos β - sπ * (S * sin ε + C * cos ε * sin θ)) N
  let l' := if l' < 0 then l' + 2 * π else l'
  let β' := arctan (cos l' * (sin β - sπ * (S * cos ε - C * sin ε * sin θ)) / N)
  (l', β', arcsin (cos l' * cos β' * sin s / N))

end Verif.Model.Parallax
