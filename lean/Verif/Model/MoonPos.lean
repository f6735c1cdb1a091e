import Verif.Model.Angle
import Verif.Model.Illum
import Verif.Model.Solar
/-
Models of packages moonposition and moon.  Exact real arithmetic, angles in radians.  Quotients of two integer literals are
integer constants in Go and therefore written as the integer quotient, 0.  Tables generated from the source.
-/
set_option linter.unusedVariables false

namespace Verif.Model.Moonposition

open Real Verif.Go Verif.Model

/-- `Parallax`.  v3/moonposition/moonposition.go:17-20. -/
noncomputable def Parallax (Δ : ℝ) : ℝ := arcsin (6378.14 / Δ)

/-- `dmf`, first result.  v3/moonposition/moonposition.go:25-26. -/
noncomputable def argD (T : ℝ) : ℝ := hornerR T [297.8501921 * deg, 445267.1114034 * deg, -0.0018819 * deg, deg / 545868, -deg / 113065000]

/-- `dmf`, second result.  v3/moonposition/moonposition.go:27-28. -/
noncomputable def argM (T : ℝ) : ℝ := hornerR T [357.5291092 * deg, 35999.0502909 * deg, -0.0001535 * deg, deg / 24490000]

/-- `dmf`, third result.  v3/moonposition/moonposition.go:29-30. -/
noncomputable def argM' (T : ℝ) : ℝ := hornerR T [134.9633964 * deg, 477198.8675055 * deg, 0.0087414 * deg, deg / 69699, -deg / 14712000]

/-- `dmf`, fourth result.  v3/moonposition/moonposition.go:31-32. -/
noncomputable def argF (T : ℝ) : ℝ := hornerR T [93.272095 * deg, 483202.0175233 * deg, -0.0036539 * deg, -deg / 3526000, deg / 863310000]

/-- A row of tables 47.A and 47.B: the type `tas` has both coefficients, in `tbs` there is one.  v3/moonposition/moonposition.go:91, 170.  The
values of the tables are integers. -/
structure Row where
  D : ℤ
  M : ℤ
  M' : ℤ
  F : ℤ
  c : ℤ
  r : ℤ

/-- `ta`: c is the column Σl, r the column Σr.  v3/moonposition/moonposition.go:93-168. -/
def ta : List Row :=
  [⟨0, 0, 1, 0, 6288774, -20905355⟩, ⟨2, 0, -1, 0, 1274027, -3699111⟩, ⟨2, 0, 0, 0, 658314, -2955968⟩,
   ⟨0, 0, 2, 0, 213618, -569925⟩, ⟨0, 1, 0, 0, -185116, 48888⟩, ⟨0, 0, 0, 2, -114332, -3149⟩, ⟨2, 0, -2, 0, 58793, 246158⟩,
   ⟨2, -1, -1, 0, 57066, -152138⟩, ⟨2, 0, 1, 0, 53322, -170733⟩, ⟨2, -1, 0, 0, 45758, -204586⟩, ⟨0, 1, -1, 0, -40923, -129620⟩,
   ⟨1, 0, 0, 0, -34720, 108743⟩, ⟨0, 1, 1, 0, -30383, 104755⟩, ⟨2, 0, 0, -2, 15327, 10321⟩, ⟨0, 0, 1, 2, -12528, 0⟩,
   ⟨0, 0, 1, -2, 10980, 79661⟩, ⟨4, 0, -1, 0, 10675, -34782⟩, ⟨0, 0, 3, 0, 10034, -23210⟩, ⟨4, 0, -2, 0, 8548, -21636⟩,
   ⟨2, 1, -1, 0, -7888, 24208⟩, ⟨2, 1, 0, 0, -6766, 30824⟩, ⟨1, 0, -1, 0, -5163, -8379⟩, ⟨1, 1, 0, 0, 4987, -16675⟩,
   ⟨2, -1, 1, 0, 4036, -12831⟩, ⟨2, 0, 2, 0, 3994, -10445⟩, ⟨4, 0, 0, 0, 3861, -11650⟩, ⟨2, 0, -3, 0, 3665, 14403⟩,
   ⟨0, 1, -2, 0, -2689, -7003⟩, ⟨2, 0, -1, 2, -2602, 0⟩, ⟨2, -1, -2, 0, 2390, 10056⟩, ⟨1, 0, 1, 0, -2348, 6322⟩,
   ⟨2, -2, 0, 0, 2236, -9884⟩, ⟨0, 1, 2, 0, -2120, 5751⟩, ⟨0, 2, 0, 0, -2069, 0⟩, ⟨2, -2, -1, 0, 2048, -4950⟩,
   ⟨2, 0, 1, -2, -1773, 4130⟩, ⟨2, 0, 0, 2, -1595, 0⟩, ⟨4, -1, -1, 0, 1215, -3958⟩, ⟨0, 0, 2, 2, -1110, 0⟩,
   ⟨3, 0, -1, 0, -892, 3258⟩, ⟨2, 1, 1, 0, -810, 2616⟩, ⟨4, -1, -2, 0, 759, -1897⟩, ⟨0, 2, -1, 0, -713, -2117⟩,
   ⟨2, 2, -1, 0, -700, 2354⟩, ⟨2, 1, -2, 0, 691, 0⟩, ⟨2, -1, 0, -2, 596, 0⟩, ⟨4, 0, 1, 0, 549, -1423⟩, ⟨0, 0, 4, 0, 537, -1117⟩,
   ⟨4, -1, 0, 0, 520, -1571⟩, ⟨1, 0, -2, 0, -487, -1739⟩, ⟨2, 1, 0, -2, -399, 0⟩, ⟨0, 0, 2, -2, -381, -4421⟩,
   ⟨1, 1, 1, 0, 351, 0⟩, ⟨3, 0, -2, 0, -340, 0⟩, ⟨4, 0, -3, 0, 330, 0⟩, ⟨2, -1, 2, 0, 327, 0⟩, ⟨0, 2, 1, 0, -323, 1165⟩,
   ⟨1, 1, -1, 0, 299, 0⟩, ⟨2, 0, 3, 0, 294, 0⟩, ⟨2, 0, -1, -2, 0, 8752⟩]

/-- `tb`: c is the column Σb.  v3/moonposition/moonposition.go:172-248. -/
def tb : List Row :=
  [⟨0, 0, 0, 1, 5128122, 0⟩, ⟨0, 0, 1, 1, 280602, 0⟩, ⟨0, 0, 1, -1, 277693, 0⟩, ⟨2, 0, 0, -1, 173237, 0⟩,
   ⟨2, 0, -1, 1, 55413, 0⟩, ⟨2, 0, -1, -1, 46271, 0⟩, ⟨2, 0, 0, 1, 32573, 0⟩, ⟨0, 0, 2, 1, 17198, 0⟩, ⟨2, 0, 1, -1, 9266, 0⟩,
   ⟨0, 0, 2, -1, 8822, 0⟩, ⟨2, -1, 0, -1, 8216, 0⟩, ⟨2, 0, -2, -1, 4324, 0⟩, ⟨2, 0, 1, 1, 4200, 0⟩, ⟨2, 1, 0, -1, -3359, 0⟩,
   ⟨2, -1, -1, 1, 2463, 0⟩, ⟨2, -1, 0, 1, 2211, 0⟩, ⟨2, -1, -1, -1, 2065, 0⟩, ⟨0, 1, -1, -1, -1870, 0⟩, ⟨4, 0, -1, -1, 1828, 0⟩,
   ⟨0, 1, 0, 1, -1794, 0⟩, ⟨0, 0, 0, 3, -1749, 0⟩, ⟨0, 1, -1, 1, -1565, 0⟩, ⟨1, 0, 0, 1, -1491, 0⟩, ⟨0, 1, 1, 1, -1475, 0⟩,
   ⟨0, 1, 1, -1, -1410, 0⟩, ⟨0, 1, 0, -1, -1344, 0⟩, ⟨1, 0, 0, -1, -1335, 0⟩, ⟨0, 0, 3, 1, 1107, 0⟩, ⟨4, 0, 0, -1, 1021, 0⟩,
   ⟨4, 0, -1, 1, 833, 0⟩, ⟨0, 0, 1, -3, 777, 0⟩, ⟨4, 0, -2, 1, 671, 0⟩, ⟨2, 0, 0, -3, 607, 0⟩, ⟨2, 0, 2, -1, 596, 0⟩,
   ⟨2, -1, 1, -1, 491, 0⟩, ⟨2, 0, -2, 1, -451, 0⟩, ⟨0, 0, 3, -1, 439, 0⟩, ⟨2, 0, 2, 1, 422, 0⟩, ⟨2, 0, -3, -1, 421, 0⟩,
   ⟨2, 1, -1, 1, -366, 0⟩, ⟨2, 1, 0, 1, -351, 0⟩, ⟨4, 0, 0, 1, 331, 0⟩, ⟨2, -1, 1, 1, 315, 0⟩, ⟨2, -2, 0, -1, 302, 0⟩,
   ⟨0, 0, 1, 3, -283, 0⟩, ⟨2, 1, 1, -1, -229, 0⟩, ⟨1, 1, 0, -1, 223, 0⟩, ⟨1, 1, 0, 1, 223, 0⟩, ⟨0, 1, -2, -1, -220, 0⟩,
   ⟨2, 1, -1, -1, -220, 0⟩, ⟨1, 0, 1, 1, -185, 0⟩, ⟨2, -1, -2, -1, 181, 0⟩, ⟨0, 1, 2, 1, -177, 0⟩, ⟨4, 0, -2, -1, 176, 0⟩,
   ⟨4, -1, -1, -1, 166, 0⟩, ⟨1, 0, 1, -1, -164, 0⟩, ⟨4, 0, 1, -1, 132, 0⟩, ⟨1, 0, -1, -1, -119, 0⟩, ⟨4, -1, 0, -1, 115, 0⟩,
   ⟨2, -2, 0, 1, 107, 0⟩]

/-- The argument of a row.  v3/moonposition/moonposition.go:60, 75. -/
noncomputable def Row.arg (r : Row) (T : ℝ) : ℝ := argD T * r.D + argM T * r.M + argM' T * r.M' + argF T * r.F

/-- The switch on the multiple of M: the factor 1, E or E², and no contribution for other multiples.  v3/moonposition/moonposition.go:61-70, 76-83. -/
noncomputable def Row.fac (r : Row) (E : ℝ) : ℝ := if r.M = 0 then 1 else if r.M = 1 ∨ r.M = -1 then E else if r.M = 2 ∨ r.M = -2 then E * E else 0

/-- `Lʹ` of `Position`.  v3/moonposition/moonposition.go:46-47. -/
noncomputable def meanLon (T : ℝ) : ℝ := hornerR T [218.3164477 * deg, 481267.88123421 * deg, -0.0015786 * deg, deg / 538841, -deg / 65194000]

/-- `E` of `Position`.  v3/moonposition/moonposition.go:52. -/
noncomputable def ecc (T : ℝ) : ℝ := hornerR T [1, -0.002516, -0.0000074]

/-- `Σl`.  v3/moonposition/moonposition.go:49-51, 54, 58-72. -/
noncomputable def suml (T : ℝ) : ℝ :=
  let A1 := 119.75 * deg + 131.849 * deg * T
  let A2 := 53.09 * deg + 479264.29 * deg * T
  3958 * sin A1 + 1962 * sin (meanLon T - argF T) + 318 * sin A2 + (ta.map fun r => r.c * sin (r.arg T) * r.fac (ecc T)).sum

/-- `Σr`.  v3/moonposition/moonposition.go:55, 58-72. -/
noncomputable def sumr (T : ℝ) : ℝ := (ta.map fun r => r.r * cos (r.arg T) * r.fac (ecc T)).sum

/-- `Σb`.  v3/moonposition/moonposition.go:49-51, 56-57, 73-85. -/
noncomputable def sumb (T : ℝ) : ℝ :=
  let A1 := 119.75 * deg + 131.849 * deg * T
  let A3 := 313.45 * deg + 481266.484 * deg * T
  let L := meanLon T
  (-2235) * sin L + 382 * sin A3 + 175 * sin (A1 - argF T) + 175 * sin (A1 + argF T) + 127 * sin (L - argM' T) -
    115 * sin (L + argM' T) + (tb.map fun r => r.c * sin (r.arg T) * r.fac (ecc T)).sum

/-- `Position`.  v3/moonposition/moonposition.go:44-90. -/
noncomputable def Position (jde : ℝ) : ℝ × ℝ × ℝ :=
  let T := J2000Century jde
  (mod1 (meanLon T) + suml T * 1e-6 * deg, sumb T * 1e-6 * deg, 385000.56 + sumr T * 1e-3)

/-- The polynomial in `Node` (see Model/Illum.lean) and in `newMoon`.  Quotients of integer literals are integers.  v3/moonposition/moonposition.go:252-253,
v3/moon/moon.go:65-66. -/
noncomputable def nodePoly (T : ℝ) : ℝ := deg * hornerR T [125.0445479, -1934.1362891, 0.0020754, (quo 1 467441 : ℤ), (quo (-1) 60616000 : ℤ)]

/-- The polynomial in `Perigee` (see Model/Illum.lean).  v3/moonposition/moonposition.go:258-259. -/
noncomputable def perigeePoly (T : ℝ) : ℝ := deg * hornerR T [83.3532465, 4069.0137287, -0.01032, (quo (-1) 80053 : ℤ), (quo 1 18999000 : ℤ)]

/-- `TrueNode`.  v3/moonposition/moonposition.go:265-273. -/
noncomputable def TrueNode (jde : ℝ) : ℝ :=
  let T := J2000Century jde
  Node jde + (-1.4979 * sin (2 * (argD T - argF T)) + -0.15 * sin (argM T) + -0.1226 * sin (2 * argD T) +
    0.1176 * sin (2 * argF T) + -0.0801 * sin (2 * (argM' T - argF T))) * deg

end Verif.Model.Moonposition

namespace Verif.Model.MoonPhys

open Real Verif.Go Verif.Model Verif.Model.Moonposition

/-- `_I`.  v3/moon/moon.go:23. -/
noncomputable def I : ℝ := 1.54242 * deg

/-- Type `moon`.  v3/moon/moon.go:47-54.  The pair sε, cε is the sine and cosine of ε. -/
structure Moon where
  jde : ℝ
  Δψ : ℝ
  F : ℝ
  Ω : ℝ
  ε : ℝ
  ρ : ℝ
  σ : ℝ
  τ : ℝ

/-- Argument of latitude in `newMoon`; the last two coefficients are quotients of integers.  v3/moon/moon.go:62-63. -/
noncomputable def polyF (T : ℝ) : ℝ := hornerR T [93.272095, 483202.0175233, -0.0036539, (quo (-1) 3526000 : ℤ), (quo 1 863310000 : ℤ)] * deg

/-- `newMoon`.  v3/moon/moon.go:56-122. -/
noncomputable def newMoon (jde : ℝ) : Moon :=
  let T := J2000Century jde
  let F := polyF T
  let Ω := nodePoly T
  let D := hornerR T [297.8501921, 445267.1114034, -0.0018819, (quo 1 545868 : ℤ), (quo (-1) 113065000 : ℤ)] * deg
  let M := hornerR T [357.5291092, 35999.0502909, -0.0001535, (quo 1 24490000 : ℤ)] * deg
  let M' := hornerR T [134.9633964, 477198.8675055, 0.0087414, (quo 1 69699 : ℤ), (quo (-1) 14712000 : ℤ)] * deg
  let E := hornerR T [1, -0.002516, -0.0000074]
  let K1 := (119.75 + 131.849 * T) * deg
  let K2 := (72.56 + 20.186 * T) * deg
  { jde := jde, Δψ := (Nutation.Nutation jde).1, F := F, Ω := Ω
    ε := Nutation.MeanObliquity jde + (Nutation.Nutation jde).2
    ρ :=
     [(-0.02752) * cos M', (-0.02245) * sin F, 0.00684 * cos (M' - 2 * F), (-0.00293) * cos (2 * F),
      (-0.00085) * cos (2 * (F - D)), (-0.00054) * cos (M' - 2 * D), (-0.0002) * sin (M' + F), (-0.0002) * cos (M' + 2 * F),
      (-0.0002) * cos (M' - F), 0.00014 * cos (M' + 2 * (F - D))].sum * deg
    σ :=
     [(-0.02816) * sin M', 0.02244 * cos F, (-0.00682) * sin (M' - 2 * F), (-0.00279) * sin (2 * F),
      (-0.00083) * sin (2 * (F - D)), 0.00069 * sin (M' - 2 * D), 0.0004 * cos (M' + F), (-0.00025) * sin (2 * M'),
      (-0.00023) * sin (M' + 2 * F), 0.0002 * cos (M' - F), 0.00019 * sin (M' - F), 0.00013 * sin (M' + 2 * (F - D)),
      (-0.0001) * cos (M' - 3 * F)].sum * deg
    τ :=
     [0.0252 * sin M * E, 0.00473 * sin (2 * (M' - F)), (-0.00467) * sin M', 0.00396 * sin K1, 0.00276 * sin (2 * (M' - D)),
      0.00196 * sin Ω, (-0.00183) * cos (M' - F), 0.00115 * sin (M' - 2 * D), (-0.00096) * sin (M' - D),
      0.00046 * sin (2 * (F - D)), (-0.00039) * sin (M' - F), (-0.00032) * sin (M' - M - D),
      0.00027 * sin (2 * (M' - D) - M), 0.00023 * sin K2, (-0.00014) * sin (2 * D), 0.00014 * cos (2 * (M' - F)),
      (-0.00012) * sin (M' - 2 * F), (-0.00012) * sin (2 * M'), 0.00011 * sin (2 * (M' - M - D))].sum * deg }

/-- `optical`: (lʹ, bʹ, A).  v3/moon/moon.go:140-149. -/
noncomputable def Moon.optical (m : Moon) (lam β : ℝ) : ℝ × ℝ × ℝ :=
  let W := lam - m.Ω
  let A := atan2 (sin W * cos β * cos I - sin β * sin I) (cos W * cos β)
  (mod1 (A - m.F), arcsin (-sin W * cos β * sin I - sin β * cos I), A)

/-- `physical`: (lʺ, bʺ).  v3/moon/moon.go:151-157. -/
noncomputable def Moon.physical (m : Moon) (A b' : ℝ) : ℝ × ℝ :=
  (-m.τ + (m.ρ * cos A + m.σ * sin A) * tan b', m.σ * cos A - m.ρ * sin A)

open Classical in
/-- `lib`.  v3/moon/moon.go:129-138. -/
noncomputable def Moon.lib (m : Moon) (lam β : ℝ) : ℝ × ℝ :=
  let o := m.optical lam β
  let q := m.physical o.2.2 o.2.1
  let l := o.1 + q.1
  (if l > π then l - 2 * π else l, o.2.1 + q.2)

open Classical in
/-- `pa`.  v3/moon/moon.go:159-172. -/
noncomputable def Moon.pa (m : Moon) (lam β b : ℝ) : ℝ :=
  let V := m.Ω + m.Δψ + m.σ / sin I
  let X := sin (I + m.ρ) * sin V
  let Y := sin (I + m.ρ) * cos V * cos m.ε - cos (I + m.ρ) * sin m.ε
  let ω := atan2 X Y
  let α := (Coord.EclToEq (lam + m.Δψ) β (sin m.ε) (cos m.ε)).1
  let P := arcsin (Verif.Model.Angle.hypot X Y * cos (α - ω) / cos b)
  if P < 0 then P + 2 * π else P

/-- `base.AU`.  v3/base/const.go:12. -/
noncomputable def AU : ℝ := 149597870

/-- λH, βH of `sun`, from the longitude λ0 and distance R of the Sun.  v3/moon/moon.go:176-178. -/
noncomputable def helio (lam0 R lam β Δ : ℝ) : ℝ × ℝ :=
  let ΔR := Δ / (R * AU)
  (lam0 + π + ΔR * (cos β * sin (lam0 - lam)), ΔR * β)

/-- `sun`; the Earth's position by VSOP87 is the parameter.  v3/moon/moon.go:174-180. -/
noncomputable def Moon.sun (m : Moon) (lam β Δ : ℝ) (earth : ℝ → ℝ × ℝ × ℝ) : ℝ × ℝ :=
  let s := Solar.ApparentVSOP87 earth m.jde
  let h := helio s.1 s.2.2 lam β Δ
  m.lib h.1 h.2

/-- `Physical`: (l, b, P, l0, b0).  v3/moon/moon.go:35-42. -/
noncomputable def Physical (jde : ℝ) (earth : ℝ → ℝ × ℝ × ℝ) : ℝ × ℝ × ℝ × ℝ × ℝ :=
  let q := Position jde
  let m := newMoon jde
  let lb := m.lib q.1 q.2.1
  let s := m.sun q.1 q.2.1 q.2.2 earth
  (lb.1, lb.2, m.pa q.1 q.2.1 lb.2, s.1, s.2)

/-- `SunAltitude`.  v3/moon/moon.go:216-221. -/
noncomputable def SunAltitude (η θ l0 b0 : ℝ) : ℝ :=
  let c0 := π / 2 - l0
  arcsin (sin b0 * sin θ + cos b0 * cos θ * sin (c0 + η))

/-- `srCorr`.  The selenographic coordinates of the Sun as a function of time are the parameter: the last two results of
`Physical`.  v3/moon/moon.go:245-249. -/
noncomputable def srCorr (sun : ℝ → ℝ × ℝ) (η θ jde : ℝ) : ℝ :=
  SunAltitude η θ (sun jde).1 (sun jde).2 / deg / 12.19075 / cos θ

/-- `Sunrise`.  v3/moon/moon.go:229-232. -/
noncomputable def Sunrise (sun : ℝ → ℝ × ℝ) (η θ jde : ℝ) : ℝ :=
  let j := jde - srCorr sun η θ jde
  j - srCorr sun η θ j

/-- `Sunset`.  v3/moon/moon.go:240-243. -/
noncomputable def Sunset (sun : ℝ → ℝ × ℝ) (η θ jde : ℝ) : ℝ :=
  let j := jde + srCorr sun η θ jde
  j + srCorr sun η θ j

end Verif.Model.MoonPhys
