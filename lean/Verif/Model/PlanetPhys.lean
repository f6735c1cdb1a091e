import Verif.Model.PlanetPos
import Verif.Model.Coord
import Verif.Model.Elliptic
import Verif.Model.Illum
import Verif.Model.Angle
/-
Models of packages saturnring, mars and jupiter (function Physical).  Exact real arithmetic.  A planet is the function giving its
heliocentric position (L, B, R) of date, that is, `V87Planet.Position`.
-/
namespace Verif.Model.PlanetPhys

open Real Verif.Go Verif.Model Verif.Model.PlanetPos Verif.Model.Elliptic

/-- A planet: `V87Planet.Position` as a function of the Julian ephemeris day. -/
abbrev Planet := ℝ → ℝ × ℝ × ℝ

/-- Position followed by `ToFK5`.  v3/saturnring/saturnring.go:73-74, v3/mars/mars.go:42-43, v3/jupiter/jupiter.go:38-39. -/
noncomputable def fk5At (p : Planet) (jde jde5 : ℝ) : ℝ × ℝ × ℝ :=
  let q := p jde
  let s := ToFK5 q.1 q.2.1 jde5
  (s.1, s.2, q.2.2)

/-- What one call of the closure `f` computes: heliocentric position of the planet and its position with respect to the Earth. -/
structure Pass where
  l : ℝ
  b : ℝ
  r : ℝ
  x : ℝ
  y : ℝ
  z : ℝ

/-- The distance. -/
noncomputable def Pass.Δ (p : Pass) : ℝ := sqrt (p.x * p.x + p.y * p.y + p.z * p.z)

/-- The closure `f`, given the distance so far; (l0, b0, R) is the Earth.  The Earth's latitude is neglected in x and y.
v3/saturnring/saturnring.go:80-90, v3/mars/mars.go:51-63, v3/jupiter/jupiter.go:46-58. -/
noncomputable def pass (planet : Planet) (jde : ℝ) (e : ℝ × ℝ × ℝ) (Δ : ℝ) : Pass :=
  let τ := LightTime Δ
  let q := fk5At planet (jde - τ) jde
  let l := q.1
  let b := q.2.1
  let r := q.2.2
  ⟨l, b, r, r * cos b * cos l - e.2.2 * cos e.1, r * cos b * sin l - e.2.2 * sin e.1, r * sin b - e.2.2 * sin e.2.1⟩

/-- Both calls of `f`, from a first distance.  v3/saturnring/saturnring.go:91-92, v3/mars/mars.go:64-65, v3/jupiter/jupiter.go:59-60. -/
noncomputable def passes (planet : Planet) (jde : ℝ) (e : ℝ × ℝ × ℝ) (Δ0 : ℝ) : Pass :=
  pass planet jde e (pass planet jde e Δ0).Δ

/-- The geocentric longitude and latitude.  v3/saturnring/saturnring.go:94-95, v3/mars/mars.go:67-68. -/
noncomputable def Pass.lam (p : Pass) : ℝ := atan2 p.y p.x
noncomputable def Pass.β (p : Pass) : ℝ := arctan (p.z / Angle.hypot p.x p.y)

/-! ### Package saturnring -/

namespace Ring

/-- Inclination of the ring.  v3/saturnring/saturnring.go:69. -/
noncomputable def inc (jde : ℝ) : ℝ := hornerR (J2000Century jde) [28.075216, -0.012998, 0.000004] * π / 180

/-- Longitude of its ascending node.  v3/saturnring/saturnring.go:70. -/
noncomputable def node (jde : ℝ) : ℝ := hornerR (J2000Century jde) [169.50847, 1.394681, 0.000412] * π / 180

/-- The Earth, and Saturn after the two passes.  v3/saturnring/saturnring.go:72-92. -/
noncomputable def earth (earth : Planet) (jde : ℝ) : ℝ × ℝ × ℝ := fk5At earth jde jde
noncomputable def saturn (e s : Planet) (jde : ℝ) : Pass := passes s jde (earth e jde) 9

/-- Longitude and latitude of Saturn corrected for the Sun's aberration.  v3/saturnring/saturnring.go:102-104. -/
noncomputable def l' (p : Pass) : ℝ := p.l - 0.01759 * π / 180 / p.r
noncomputable def b' (jde : ℝ) (p : Pass) : ℝ :=
  let T := J2000Century jde
  let N := (113.6655 + 0.8771 * T) * π / 180
  p.b - 0.000764 * π / 180 * (cos (p.l - N) / p.r)

/-- `sB`.  v3/saturnring/saturnring.go:99. -/
noncomputable def sB (e s : Planet) (jde : ℝ) : ℝ :=
  let p := saturn e s jde
  sin (inc jde) * cos p.β * sin (p.lam - node jde) - cos (inc jde) * sin p.β

/-- `UB`: (ΔU, B).  v3/saturnring/saturnring.go:51-54, 66-114. -/
noncomputable def UB (e s : Planet) (jde : ℝ) : ℝ × ℝ :=
  let p := saturn e s jde
  let i := inc jde
  let Ω := node jde
  let B := arcsin (sB e s jde)
  let U1 := atan2 (sin i * sin (b' jde p) + cos i * cos (b' jde p) * sin (l' p - Ω)) (cos (b' jde p) * cos (l' p - Ω))
  let U2 := atan2 (sin i * sin p.β + cos i * cos p.β * sin (p.lam - Ω)) (cos p.β * cos (p.lam - Ω))
  (|U1 - U2|, B)

/-- The closure `f2`: (Bʹ, P, aEdge, bEdge).  v3/saturnring/saturnring.go:115-151. -/
noncomputable def f2 (e s : Planet) (jde : ℝ) : ℝ × ℝ × ℝ × ℝ :=
  let p := saturn e s jde
  let i := inc jde
  let Ω := node jde
  let aEdge := 375.35 * Nutation.sec / p.Δ
  let bEdge := aEdge * |sB e s jde|
  let B' := arcsin (sin i * cos (b' jde p) * sin (l' p - Ω) - cos i * sin (b' jde p))
  let n := Nutation.Nutation jde
  let ε := Nutation.MeanObliquity jde + n.2
  let lam0 := Ω - π / 2
  let β0 := π / 2 - i
  let l0 := (earth e jde).1
  let lam := p.lam + 0.005693 * π / 180 * (cos (l0 - p.lam) / cos p.β)
  let β := p.β + 0.005693 * π / 180 * (sin (l0 - p.lam) * sin p.β)
  let lam0 := lam0 + n.1
  let lam := lam + n.1
  let q0 := Coord.EclToEq lam0 β0 (sin ε) (cos ε)
  let q := Coord.EclToEq lam β (sin ε) (cos ε)
  let P := atan2 (cos q0.2 * sin (q0.1 - q.1)) (sin q0.2 * cos q.2 - cos q0.2 * sin q.2 * cos (q0.1 - q.1))
  (B', P, aEdge, bEdge)

/-- `Ring`: (B, Bʹ, ΔU, P, aEdge, bEdge).  v3/saturnring/saturnring.go:41-46. -/
noncomputable def Ring (e s : Planet) (jde : ℝ) : ℝ × ℝ × ℝ × ℝ × ℝ × ℝ :=
  let u := UB e s jde
  let w := f2 e s jde
  (u.2, w.1, u.1, w.2.1, w.2.2.1, w.2.2.2)

end Ring

/-! ### Package mars -/

namespace Mars

/-- Pole of Mars, ecliptic.  v3/mars/mars.go:38-39. -/
noncomputable def lam0 (jde : ℝ) : ℝ := 352.9065 * deg + 1.1733 * deg * J2000Century jde
noncomputable def β0 (jde : ℝ) : ℝ := 63.2818 * deg - 0.00394 * deg * J2000Century jde

/-- The Earth, and Mars after the two passes.  v3/mars/mars.go:41-65. -/
noncomputable def earth (e : Planet) (jde : ℝ) : ℝ × ℝ × ℝ := fk5At e jde jde
noncomputable def mars (e m : Planet) (jde : ℝ) : Pass := passes m jde (earth e jde) 0.5

/-- Longitude and latitude of Mars corrected for the Sun's aberration.  v3/mars/mars.go:74-76. -/
noncomputable def l' (p : Pass) : ℝ := p.l - 0.00697 * deg / p.r
noncomputable def b' (jde : ℝ) (p : Pass) : ℝ :=
  let N := 49.5581 * deg + 0.7721 * deg * J2000Century jde
  p.b - 0.000225 * deg * cos (p.l - N) / p.r

/-- Equatorial coordinates of step 11, mean equinox of date.  v3/mars/mars.go:87-90. -/
noncomputable def u (ε0 : ℝ) (p : Pass) : ℝ := p.y * cos ε0 - p.z * sin ε0
noncomputable def v (ε0 : ℝ) (p : Pass) : ℝ := p.y * sin ε0 + p.z * cos ε0
noncomputable def α (ε0 : ℝ) (p : Pass) : ℝ := atan2 (u ε0 p) p.x
noncomputable def δ (ε0 : ℝ) (p : Pass) : ℝ := arctan (v ε0 p / Angle.hypot p.x (u ε0 p))

/-- Results of `Physical`. -/
structure Result where
  DE : ℝ
  DS : ℝ
  ω : ℝ
  P : ℝ
  Q : ℝ
  d : ℝ
  q : ℝ
  k : ℝ

open Classical in
/-- `Physical`.  v3/mars/mars.go:33-143. -/
noncomputable def Physical (e m : Planet) (jde : ℝ) : Result :=
  let p := mars e m jde
  let DE := arcsin (-sin (β0 jde) * sin p.β - cos (β0 jde) * cos p.β * cos (lam0 jde - p.lam))
  let DS := arcsin (-sin (β0 jde) * sin (b' jde p) - cos (β0 jde) * cos (b' jde p) * cos (lam0 jde - l' p))
  let τ := LightTime p.Δ
  let W := 11.504 * deg + 350.89200025 * deg * (jde - τ - 2433282.5)
  let ε0 := Nutation.MeanObliquity jde
  let q0 := Coord.EclToEq (lam0 jde) (β0 jde) (sin ε0) (cos ε0)
  let α := α ε0 p
  let δ := δ ε0 p
  let ζ := atan2 (sin q0.2 * cos δ * cos (q0.1 - α) - sin δ * cos q0.2) (cos δ * sin (q0.1 - α))
  let ω := mod1 (W - ζ)
  let n := Nutation.Nutation jde
  let l0 := (earth e jde).1
  let lam := p.lam + 0.005693 * deg * cos (l0 - p.lam) / cos p.β
  let β := p.β + 0.005693 * deg * sin (l0 - p.lam) * sin p.β
  let lam0' := lam0 jde + n.1
  let lam := lam + n.1
  let ε := ε0 + n.2
  let q0' := Coord.EclToEq lam0' (β0 jde) (sin ε) (cos ε)
  let q' := Coord.EclToEq lam β (sin ε) (cos ε)
  let P := atan2 (cos q0'.2 * sin (q0'.1 - q'.1)) (sin q0'.2 * cos q'.2 - cos q0'.2 * sin q'.2 * cos (q0'.1 - q'.1))
  let P := if P < 0 then P + 2 * π else P
  let s := l0 + π
  let αs := atan2 (cos ε * sin s) (cos s)
  let δs := arcsin (sin ε * sin s)
  let χ := atan2 (cos δs * sin (αs - α)) (sin δs * cos δ - cos δs * sin δ * cos (αs - α))
  let Q := χ + π
  let d := 9.36 * Nutation.sec / p.Δ
  let k := Illum.Fraction p.r p.Δ (earth e jde).2.2
  ⟨DE, DS, ω, P, Q, d, d * (1 - k), k⟩

end Mars

/-! ### Package jupiter -/

namespace Jupiter

/-- Pole of Jupiter, equatorial.  v3/jupiter/jupiter.go:30-32. -/
noncomputable def α0 (jde : ℝ) : ℝ := 268 * deg + 0.1061 * deg * ((jde - 2433282.5) / 36525)
noncomputable def δ0 (jde : ℝ) : ℝ := 64.5 * deg - 0.0164 * deg * ((jde - 2433282.5) / 36525)

/-- The Earth, and Jupiter after the two passes.  v3/jupiter/jupiter.go:37-60. -/
noncomputable def earth (e : Planet) (jde : ℝ) : ℝ × ℝ × ℝ := fk5At e jde jde
noncomputable def jupiter (e j : Planet) (jde : ℝ) : Pass := passes j jde (earth e jde) 4

/-- Results of `Physical`. -/
structure Result where
  DS : ℝ
  DE : ℝ
  ω1 : ℝ
  ω2 : ℝ
  P : ℝ

open Classical in
/-- `Physical`.  v3/jupiter/jupiter.go:26-122. -/
noncomputable def Physical (e j : Planet) (jde : ℝ) : Result :=
  let d := jde - 2433282.5
  let W1 := 17.71 * deg + 877.90003539 * deg * d
  let W2 := 16.838 * deg + 870.27003539 * deg * d
  let p := jupiter e j jde
  let l0 := (earth e jde).1
  let R := (earth e jde).2.2
  let ε0 := Nutation.MeanObliquity jde
  let αs := atan2 (cos ε0 * sin p.l - sin ε0 * sin p.b / cos p.b) (cos p.l)
  let δs := arcsin (cos ε0 * sin p.b + sin ε0 * cos p.b * sin p.l)
  let DS := arcsin (-sin (δ0 jde) * sin δs - cos (δ0 jde) * cos δs * cos (α0 jde - αs))
  let u := p.y * cos ε0 - p.z * sin ε0
  let v := p.y * sin ε0 + p.z * cos ε0
  let α := atan2 u p.x
  let δ := arctan (v / Angle.hypot p.x u)
  let ζ := atan2 (sin (δ0 jde) * cos δ * cos (α0 jde - α) - sin δ * cos (δ0 jde)) (cos δ * sin (α0 jde - α))
  let DE := arcsin (-sin (δ0 jde) * sin δ - cos (δ0 jde) * cos δ * cos (α0 jde - α))
  let ω1 := W1 - ζ - 5.07033 * deg * p.Δ
  let ω2 := W2 - ζ - 5.02626 * deg * p.Δ
  let C := (2 * p.r * p.Δ + R * R - p.r * p.r - p.Δ * p.Δ) / (4 * p.r * p.Δ)
  let C := if sin (p.l - l0) < 0 then -C else C
  let ω1 := mod1 (ω1 + C)
  let ω2 := mod1 (ω2 + C)
  let n := Nutation.Nutation jde
  let ε := ε0 + n.2
  let α1 := α + 0.005693 * deg * (cos α * cos l0 * cos ε + sin α * sin l0) / cos δ
  let δ1 := δ + 0.005693 * deg * (cos l0 * cos ε * (sin ε / cos ε * cos δ - sin α * sin δ) + cos α * sin δ * sin l0)
  let tδ := sin δ / cos δ
  let Δα := (cos ε + sin ε * sin α * tδ) * n.1 - cos α * tδ * n.2
  let Δδ := sin ε * cos α * n.1 + sin α * n.2
  let α' := α1 + Δα
  let δ' := δ1 + Δδ
  let tδ0 := sin (δ0 jde) / cos (δ0 jde)
  let Δα0 := (cos ε + sin ε * sin (α0 jde) * tδ0) * n.1 - cos (α0 jde) * tδ0 * n.2
  let Δδ0 := sin ε * cos (α0 jde) * n.1 + sin (α0 jde) * n.2
  let α0' := α0 jde + Δα0
  let δ0' := δ0 jde + Δδ0
  let P := atan2 (cos δ0' * sin (α0' - α')) (sin δ0' * cos δ' - cos δ0' * sin δ' * cos (α0' - α'))
  let P := if P < 0 then P + 2 * π else P
  ⟨DS, DE, ω1, ω2, P⟩

end Jupiter

end Verif.Model.PlanetPhys
