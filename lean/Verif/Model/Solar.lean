import Verif.Model.Nutation
import Verif.Model.Coord
/-
Models of packages solar, eqtime, solardisk and solarxyz.  Exact real arithmetic, angles in radians.  The position of the
Earth by VSOP87 (package planetposition) is a parameter, a function of the time giving longitude, latitude and distance.
-/
namespace Verif.Model.Solar

open Real Verif.Go Verif.Model.Nutation

/-- `MeanAnomaly`.  v3/solar/solar.go:54-57. -/
noncomputable def MeanAnomaly (T : ℝ) : ℝ := hornerR T [357.52911, 35999.05029, -0.0001537] * deg

/-- The equation of the centre in `True`.  v3/solar/solar.go:41-44. -/
noncomputable def center (T : ℝ) : ℝ :=
  let M := MeanAnomaly T
  (hornerR T [1.914602, -0.004817, -0.000014] * sin M + (0.019993 - 0.000101 * T) * sin (M * 2) + 0.000289 * sin (M * 3)) * deg

/-- The mean longitude in `True`.  v3/solar/solar.go:39. -/
noncomputable def meanLon (T : ℝ) : ℝ := hornerR T [280.46646, 36000.76983, 0.0003032] * deg

/-- `True` (renamed).  v3/solar/solar.go:37-46. -/
noncomputable def TrueLon (T : ℝ) : ℝ × ℝ := (mod1 (meanLon T + center T), mod1 (MeanAnomaly T + center T))

/-- `Eccentricity`.  v3/solar/solar.go:63-66. -/
noncomputable def Eccentricity (T : ℝ) : ℝ := hornerR T [0.016708634, -0.000042037, -0.0000001267]

/-- `Radius`.  v3/solar/solar.go:72-77. -/
noncomputable def Radius (T : ℝ) : ℝ :=
  let e := Eccentricity T
  1.000001018 * (1 - e * e) / (1 + e * cos (TrueLon T).2)

/-- `node`.  v3/solar/solar.go:93-95. -/
noncomputable def node (T : ℝ) : ℝ := (125.04 - 1934.136 * T) * deg

/-- `ApparentLongitude`.  v3/solar/solar.go:86-91. -/
noncomputable def ApparentLongitude (T : ℝ) : ℝ := (TrueLon T).1 - 0.00569 * deg - 0.00478 * deg * sin (node T)

/-- `True2000`.  v3/solar/solar.go:107-111. -/
noncomputable def True2000 (T : ℝ) : ℝ × ℝ := ((TrueLon T).1 - 0.01397 * deg * (T * 100), (TrueLon T).2)

/-- `TrueEquatorial`.  v3/solar/solar.go:114-123. -/
noncomputable def TrueEquatorial (jde : ℝ) : ℝ × ℝ :=
  let s := (TrueLon (J2000Century jde)).1
  let ε := MeanObliquity jde
  (mod1 (atan2 (cos ε * sin s) (cos s)), arcsin (sin ε * sin s))

/-- `ApparentEquatorial`.  v3/solar/solar.go:129-140. -/
noncomputable def ApparentEquatorial (jde : ℝ) : ℝ × ℝ :=
  let T := J2000Century jde
  let l := ApparentLongitude T
  let ε := MeanObliquity jde + 0.00256 * deg * cos (node T)
  (mod1 (atan2 (cos ε * sin l) (cos l)), arcsin (sin ε * sin l))

/-- `TrueVSOP87`.  v3/solar/solar.go:150-161. -/
noncomputable def TrueVSOP87 (e : ℝ → ℝ × ℝ × ℝ) (jde : ℝ) : ℝ × ℝ × ℝ :=
  let (l, b, r) := e jde
  let s := l + π
  let lp := hornerR (J2000Century jde) [s, -1.397 * π / 180, -0.00031 * π / 180]
  let Δβ := 0.03916 * sec * (cos lp - sin lp)
  (mod1 (s - 0.09033 * sec), Δβ - b, r)

/-- `aberration`.  v3/solar/solar.go:204-207. -/
noncomputable def aberration (R : ℝ) : ℝ := -20.4898 * sec / R

/-- `ApparentVSOP87`.  v3/solar/solar.go:171-177. -/
noncomputable def ApparentVSOP87 (e : ℝ → ℝ × ℝ × ℝ) (jde : ℝ) : ℝ × ℝ × ℝ :=
  let (s, β, R) := TrueVSOP87 e jde
  (s + (Nutation jde).1 + aberration R, β, R)

/-- `ApparentEquatorialVSOP87`.  v3/solar/solar.go:187-198. -/
noncomputable def ApparentEquatorialVSOP87 (e : ℝ → ℝ × ℝ × ℝ) (jde : ℝ) : ℝ × ℝ × ℝ :=
  let (s, β, R) := TrueVSOP87 e jde
  let l := s + (Nutation jde).1 + aberration R
  let ε := MeanObliquity jde + (Nutation jde).2
  let q := Coord.EclToEq l β (sin ε) (cos ε)
  (q.1, q.2, R)

end Verif.Model.Solar

namespace Verif.Model.Eqtime

open Real Verif.Go Verif.Model.Nutation Verif.Model.Solar

/-- `l0`.  v3/eqtime/eqtime.go:42-46. -/
noncomputable def l0 (τ : ℝ) : ℝ :=
  hornerR τ [280.4664567, 360007.6982779, 0.03032028, 1 / 49931, -1 / 15300, -1 / 2000000] * deg

/-- `E`.  v3/eqtime/eqtime.go:24-39. -/
noncomputable def E (jde : ℝ) (e : ℝ → ℝ × ℝ × ℝ) : ℝ :=
  let τ := J2000Century jde * 0.1
  let L0 := l0 τ
  let (s, β, R) := TrueVSOP87 e jde
  let Δψ := (Nutation jde).1
  let a := -20.4898 * sec / R
  let l := s + Δψ + a
  let ε := MeanObliquity jde + (Nutation jde).2
  let α := (Coord.EclToEq l β (sin ε) (cos ε)).1
  let E := L0 - 0.0057183 * deg - α + Δψ * cos ε
  mod1 (E + π) - π

/-- `ESmart`.  v3/eqtime/eqtime.go:54-67. -/
noncomputable def ESmart (jde : ℝ) : ℝ :=
  let ε := MeanObliquity jde
  let t := tan (ε * 0.5)
  let y := t * t
  let T := J2000Century jde
  let L0 := l0 (T * 0.1)
  let e := Eccentricity T
  let M := MeanAnomaly T
  let s2L0 := sin (L0 * 2)
  let c2L0 := cos (L0 * 2)
  let sM := sin M
  y * s2L0 - 2 * e * sM + 4 * e * y * sM * c2L0 - y * y * s2L0 * c2L0 - 1.25 * e * e * sin (M * 2)

end Verif.Model.Eqtime

namespace Verif.Model.Solardisk

open Real Verif.Go Verif.Model.Nutation Verif.Model.Solar

/-- `Ephemeris` with the apparent quantities λ, λ', ε as arguments.  v3/solardisk/solardisk.go:24-27, 36-45. -/
noncomputable def orient (jd l lp ε : ℝ) : ℝ × ℝ × ℝ :=
  let θ := (jd - 2398220) * 2 * π / 25.38
  let I := 7.25 * deg
  let K := 73.6667 * deg + 1.3958333 * deg * ((jd - 2396758) / 36525)
  let slK := sin (l - K)
  let clK := cos (l - K)
  let tx := -(cos lp * tan ε)
  let ty := -(clK * tan I)
  (arctan tx + arctan ty, arcsin (slK * sin I), mod1 (atan2 (-slK * cos I) (-clK) - θ))

/-- `Ephemeris`.  v3/solardisk/solardisk.go:23-46. -/
noncomputable def Ephemeris (jd : ℝ) (e : ℝ → ℝ × ℝ × ℝ) : ℝ × ℝ × ℝ :=
  let (L, _, R) := TrueVSOP87 e jd
  let ε := MeanObliquity jd + (Nutation jd).2
  let l := L - 20.4898 * sec / R
  orient jd l (l + (Nutation jd).1) ε

/-- `Cycle`.  v3/solardisk/solardisk.go:53-59. -/
noncomputable def Cycle (c : ℤ) : ℝ :=
  let jde := 2398140.227 + 27.2752316 * (c : ℝ)
  let m := 281.96 * π / 180 + 26.882476 * π / 180 * (c : ℝ)
  jde + 0.1454 * sin m - 0.0085 * sin (2 * m) - 0.0141 * cos (2 * m)

end Verif.Model.Solardisk

namespace Verif.Model.Solarxyz

open Real Verif.Go Verif.Model.Nutation Verif.Model.Solar

/-- `Position`.  v3/solarxyz/solarxyz.go:19-29. -/
noncomputable def Position (e : ℝ → ℝ × ℝ × ℝ) (jde : ℝ) : ℝ × ℝ × ℝ :=
  let (s, β, R) := TrueVSOP87 e jde
  let ε := MeanObliquity jde
  (R * cos s, R * (sin s * cos ε - sin β * sin ε), R * (sin s * sin ε + sin β * cos ε))

/-- `LongitudeJ2000`; the parameter is `Position2000` of the Earth.  v3/solarxyz/solarxyz.go:32-35. -/
noncomputable def LongitudeJ2000 (e : ℝ → ℝ × ℝ × ℝ) (jde : ℝ) : ℝ := mod1 ((e jde).1 + π - 0.09033 * sec)

/-- `xyz`.  v3/solarxyz/solarxyz.go:46-57. -/
noncomputable def xyz (e : ℝ → ℝ × ℝ × ℝ) (jde : ℝ) : ℝ × ℝ × ℝ :=
  let (l, b, r) := e jde
  let s := l + π
  let β := -b
  (r * cos β * cos s, r * cos β * sin s, r * sin β)

/-- `PositionJ2000`.  v3/solarxyz/solarxyz.go:38-44. -/
noncomputable def PositionJ2000 (e : ℝ → ℝ × ℝ × ℝ) (jde : ℝ) : ℝ × ℝ × ℝ :=
  let (x, y, z) := xyz e jde
  (x + 0.00000044036 * y - 0.000000190919 * z,
   -0.000000479966 * x + 0.917482137087 * y - 0.397776982902 * z,
   0.397776982902 * y + 0.917482137087 * z)

/-- `PositionB1950`.  v3/solarxyz/solarxyz.go:63-68. -/
noncomputable def PositionB1950 (e : ℝ → ℝ × ℝ × ℝ) (jde : ℝ) : ℝ × ℝ × ℝ :=
  let (x, y, z) := xyz e jde
  (0.999925702634 * x + 0.012189716217 * y + 0.000011134016 * z,
   -0.011179418036 * x + 0.917413998946 * y - 0.397777041885 * z,
   -0.004859003787 * x + 0.397747363646 * y + 0.917482111428 * z)

/-- The angles of `PositionEquinox`.  v3/solarxyz/solarxyz.go:70-74, 82-85. -/
noncomputable def angles (epoch : ℝ) : ℝ × ℝ × ℝ :=
  let t := (epoch - 2000) * 0.01
  (hornerR t [2306.2181, 0.30188, 0.017998] * t * π / 180 / 3600,
   hornerR t [2306.2181, 1.09468, 0.018203] * t * π / 180 / 3600,
   hornerR t [2004.3109, -0.42665, -0.041833] * t * π / 180 / 3600)

/-- The matrix of `PositionEquinox` applied to a vector.  v3/solarxyz/solarxyz.go:86-100. -/
noncomputable def turn (ζ z θ x0 y0 z0 : ℝ) : ℝ × ℝ × ℝ :=
  let xx := cos ζ * cos z * cos θ - sin ζ * sin z
  let xy := sin ζ * cos z + cos ζ * sin z * cos θ
  let xz := cos ζ * sin θ
  let yx := -cos ζ * sin z - sin ζ * cos z * cos θ
  let yy := cos ζ * cos z - sin ζ * sin z * cos θ
  let yz := -sin ζ * sin θ
  let zx := -cos z * sin θ
  let zy := -sin z * sin θ
  let zz := cos θ
  (xx * x0 + yx * y0 + zx * z0, xy * x0 + yy * y0 + zy * z0, xz * x0 + yz * y0 + zz * z0)

/-- `PositionEquinox`.  v3/solarxyz/solarxyz.go:80-101. -/
noncomputable def PositionEquinox (e : ℝ → ℝ × ℝ × ℝ) (jde epoch : ℝ) : ℝ × ℝ × ℝ :=
  let (x0, y0, z0) := PositionJ2000 e jde
  let a := angles epoch
  turn a.1 a.2.1 a.2.2 x0 y0 z0

end Verif.Model.Solarxyz
