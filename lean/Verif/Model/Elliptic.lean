import Verif.Model.Kepler
import Verif.Model.Coord
import Verif.Model.Orbits
/-
Model of package elliptic (v3/elliptic/elliptic.go).  Exact real arithmetic, angles in radians.  Planet and solar positions
(packages planetposition and solarxyz), nutation, aberration and the FK5 correction are parameters.
-/
namespace Verif.Model.Elliptic

open Verif.Go Real Verif.Model.Kepler

/-- `Velocity`.  v3/elliptic/elliptic.go:155-157. -/
noncomputable def Velocity (a r : ℝ) : ℝ := 42.1219 * sqrt (1 / r - 0.5 / a)

/-- `VAphelion`.  v3/elliptic/elliptic.go:164-166. -/
noncomputable def VAphelion (a e : ℝ) : ℝ := 29.7847 * sqrt ((1 - e) / (1 + e) / a)

/-- `VPerihelion`.  v3/elliptic/elliptic.go:173-175. -/
noncomputable def VPerihelion (a e : ℝ) : ℝ := 29.7847 * sqrt ((1 + e) / (1 - e) / a)

/-- `Length1`.  v3/elliptic/elliptic.go:183-186. -/
noncomputable def Length1 (a e : ℝ) : ℝ :=
  let b := a * sqrt (1 - e * e)
  π * (3 * (a + b) - sqrt ((a + 3 * b) * (3 * a + b)))

/-- `Length2`.  v3/elliptic/elliptic.go:194-202. -/
noncomputable def Length2 (a e : ℝ) : ℝ :=
  let b := a * sqrt (1 - e * e)
  let s := a + b
  let p := a * b
  let A := s * 0.5
  let G := sqrt p
  let H := 2 * p / s
  π * (21 * A - 2 * G - 3 * H) * 0.125

open Classical in
/-- The loop of `Length4`.  v3/elliptic/elliptic.go:243-249.  State: sum0, the term just added to it (sum1 = sum0 + term), nf, df.
The test `sum1 != sum0`, on which termination depends, compares rounded sums; it is a parameter: `lost s t` tells that adding
t to s has no effect in floating point.  The arithmetic of the sums is exact here.  `none` is no end within the fuel. -/
noncomputable def length4Loop (lost : ℝ → ℝ → Prop) (m2 : ℝ) : ℕ → ℝ → ℝ → ℝ → ℝ → Option ℝ
  | 0, _, _, _, _ => none
  | k + 1, sum0, term, nf, df =>
    if lost sum0 term then some sum0
    else
      let nf := nf + 2
      let df := df + 2
      length4Loop lost m2 k (sum0 + term) (term * (nf * nf * m2 / (df * df))) nf df

/-- `Length4`.  v3/elliptic/elliptic.go:234-251. -/
noncomputable def Length4 (lost : ℝ → ℝ → Prop) (fuel : ℕ) (a e : ℝ) : Option ℝ :=
  let b := a * sqrt (1 - e * e)
  let m := (a - b) / (a + b)
  let m2 := m * m
  (length4Loop lost m2 fuel 1 (m2 * 0.25) (-1) 2).map fun sum0 => 2 * π * a * sum0 / (1 + m)

/-- The fields of `Elements`.  v3/elliptic/elliptic.go:63-70. -/
structure Elements where
  Axis : ℝ
  Ecc : ℝ
  Inc : ℝ
  ArgP : ℝ
  Node : ℝ
  TimeP : ℝ

/-- `SOblJ2000`, `COblJ2000`.  v3/base/const.go:17-20. -/
noncomputable def SOblJ2000 : ℝ := 0.397777156
noncomputable def COblJ2000 : ℝ := 0.917482062

/-- `base.LightTime`.  v3/base/const.go:29-32. -/
noncomputable def LightTime (Δ : ℝ) : ℝ := 0.0057755183 * Δ

/-- The eccentric anomaly inside `Elements.Position`: Kepler2b to 15 places, Kepler3 when that fails.
v3/elliptic/elliptic.go:80,103-107. -/
noncomputable def Elements.anomaly (k : Elements) (jde : ℝ) : ℝ :=
  let n := Orbits.K / k.Axis / sqrt k.Axis
  let M := n * (jde - k.TimeP)
  (Kepler2b k.Ecc M 15).getD (Kepler3 k.Ecc M)

/-- The closure f of `Elements.Position`: heliocentric equatorial rectangular coordinates.  v3/elliptic/elliptic.go:78-115. -/
noncomputable def Elements.xyz (k : Elements) (jde : ℝ) : ℝ × ℝ × ℝ :=
  let sε := SOblJ2000
  let cε := COblJ2000
  let F := cos k.Node
  let G := sin k.Node * cε
  let H := sin k.Node * sε
  let P := -sin k.Node * cos k.Inc
  let Q := cos k.Node * cos k.Inc * cε - sin k.Inc * sε
  let R := cos k.Node * cos k.Inc * sε + sin k.Inc * cε
  let A := atan2 F P
  let B := atan2 G Q
  let C := atan2 H R
  let a := sqrt (F ^ 2 + P ^ 2)
  let b := sqrt (G ^ 2 + Q ^ 2)
  let c := sqrt (H ^ 2 + R ^ 2)
  let E := k.anomaly jde
  let ν := TrueAnom E k.Ecc
  let r := Radius E k.Ecc k.Axis
  (r * a * sin (A + k.ArgP + ν), r * b * sin (B + k.ArgP + ν), r * c * sin (C + k.ArgP + ν))

/-- `AstrometricJ2000`; f and the Sun's rectangular coordinates are parameters.  v3/elliptic/elliptic.go:126-148. -/
noncomputable def AstrometricJ2000 (f : ℝ → ℝ × ℝ × ℝ) (sun : ℝ → ℝ × ℝ × ℝ) (jde : ℝ) : ℝ × ℝ × ℝ :=
  let (X, Y, Z) := sun jde
  let (x, y, z) := f jde
  let ξ := X + x
  let η := Y + y
  let ζ := Z + z
  let Δ := sqrt (ξ * ξ + η * η + ζ * ζ)
  let τ := LightTime Δ
  let (x, y, z) := f (jde - τ)
  let ξ := X + x
  let η := Y + y
  let ζ := Z + z
  let Δ := sqrt (ξ * ξ + η * η + ζ * ζ)
  let α := mod1 (atan2 η ξ)
  let δ := arcsin (ζ / Δ)
  let R0 := sqrt (X * X + Y * Y + Z * Z)
  (α, δ, arccos ((ξ * X + η * Y + ζ * Z) / R0 / Δ))

/-- The geocentric ecliptic direction inside `Position`, before aberration, FK5 correction and nutation; `earth` and `p` give
(L, B, R) at a time.  v3/elliptic/elliptic.go:30-53. -/
noncomputable def geocentric (p earth : ℝ → ℝ × ℝ × ℝ) (jde : ℝ) : ℝ × ℝ :=
  let (L0, B0, R0) := earth jde
  let (L, B, R) := p jde
  let x := R * cos B * cos L - R0 * cos B0 * cos L0
  let y := R * cos B * sin L - R0 * cos B0 * sin L0
  let z := R * sin B - R0 * sin B0
  let Δ := sqrt (x * x + y * y + z * z)
  let τ := LightTime Δ
  let (L, B, R) := p (jde - τ)
  let x := R * cos B * cos L - R0 * cos B0 * cos L0
  let y := R * cos B * sin L - R0 * cos B0 * sin L0
  let z := R * sin B - R0 * sin B0
  (atan2 y x, atan2 z (sqrt (x ^ 2 + y ^ 2)))

/-- `Position`; aberration, FK5 correction, nutation and mean obliquity are parameters.  v3/elliptic/elliptic.go:29-60. -/
noncomputable def Position (p earth : ℝ → ℝ × ℝ × ℝ) (aberr fk5 : ℝ → ℝ → ℝ → ℝ × ℝ) (nut : ℝ → ℝ × ℝ) (obl : ℝ → ℝ)
    (jde : ℝ) : ℝ × ℝ :=
  let g := geocentric p earth jde
  let ab := aberr g.1 g.2 jde
  let q := fk5 (g.1 + ab.1) (g.2 + ab.2) jde
  let ψε := nut jde
  let ε := obl jde + ψε.2
  Coord.EclToEq (q.1 + ψε.1) q.2 (sin ε) (cos ε)

end Verif.Model.Elliptic
