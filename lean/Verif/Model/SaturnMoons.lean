import Verif.Model.PlanetPhys
import Verif.Model.Solar
/-
Model of package saturnmoons (v3/saturnmoons/saturnmoons.go).  Exact real arithmetic.  `solar.TrueVSOP87` and
`precess.EclipticPosition` are the models of those functions.  The struct qs is modelled by one definition for each field, a function
of the Julian ephemeris day corrected for light time.
-/
namespace Verif.Model.SatMoons

open Real Verif.Go Verif.Model Verif.Model.Solar Verif.Model.PlanetPhys Verif.Model.Elliptic

/-- The times.  v3/saturnmoons/saturnmoons.go:123-133. -/
noncomputable def t1 (J : ℝ) : ℝ := J - 2411093
noncomputable def t2 (J : ℝ) : ℝ := t1 J / 365.25
noncomputable def t3 (J : ℝ) : ℝ := (J - 2433282.423) / 365.25 + 1950
noncomputable def t4 (J : ℝ) : ℝ := J - 2411368
noncomputable def t5 (J : ℝ) : ℝ := t4 J / 365.25
noncomputable def t6 (J : ℝ) : ℝ := J - 2415020
noncomputable def t7 (J : ℝ) : ℝ := t6 J / 36525
noncomputable def t8 (J : ℝ) : ℝ := t6 J / 365.25
noncomputable def t9 (J : ℝ) : ℝ := (J - 2442000.5) / 365.25
noncomputable def t10 (J : ℝ) : ℝ := J - 2409786
noncomputable def t11 (J : ℝ) : ℝ := t10 J / 36525

/-- The arguments W0 … W8 and e1.  v3/saturnmoons/saturnmoons.go:134-145. -/
noncomputable def W0 (J : ℝ) : ℝ := 5.095 * deg * (t3 J - 1866.39)
noncomputable def W1 (J : ℝ) : ℝ := 74.4 * deg + 32.39 * deg * t2 J
noncomputable def W2 (J : ℝ) : ℝ := 134.3 * deg + 92.62 * deg * t2 J
noncomputable def W3 (J : ℝ) : ℝ := 42 * deg - 0.5118 * deg * t5 J
noncomputable def W4 (J : ℝ) : ℝ := 276.59 * deg + 0.5118 * deg * t5 J
noncomputable def W5 (J : ℝ) : ℝ := 267.2635 * deg + 1222.1136 * deg * t7 J
noncomputable def W6 (J : ℝ) : ℝ := 175.4762 * deg + 1221.5515 * deg * t7 J
noncomputable def W7 (J : ℝ) : ℝ := 2.4891 * deg + 0.002435 * deg * t7 J
noncomputable def W8 (J : ℝ) : ℝ := 113.35 * deg - 0.2597 * deg * t7 J
noncomputable def e1 (J : ℝ) : ℝ := 0.05589 - 0.000346 * t7 J

/-- The inclination and the node of the plane of the ring; s1, c1, s2, c2 are their sines and cosines.
v3/saturnmoons/saturnmoons.go:143-144. -/
noncomputable def inc0 : ℝ := 28.0817 * deg
noncomputable def node0 : ℝ := 168.8112 * deg

/-- `r4`.  v3/saturnmoons/saturnmoons.go:157. -/
structure R4 where
  lam : ℝ
  r : ℝ
  γ : ℝ
  Ω : ℝ

/-- `mimas`.  v3/saturnmoons/saturnmoons.go:159-171. -/
noncomputable def mimas (J : ℝ) : R4 :=
  let L := 127.64 * deg + 381.994497 * deg * t1 J - 43.57 * deg * sin (W0 J) - 0.72 * deg * sin (3 * W0 J) -
    0.02144 * deg * sin (5 * W0 J)
  let p := 106.1 * deg + 365.549 * deg * t2 J
  let M := L - p
  let C := 2.18287 * deg * sin M + 0.025988 * deg * sin (2 * M) + 0.00043 * deg * sin (3 * M)
  ⟨L + C, 3.06879 / (1 + 0.01905 * cos (M + C)), 1.563 * deg, 54.5 * deg - 365.072 * deg * t2 J⟩

/-- `enceladus`.  v3/saturnmoons/saturnmoons.go:173-183. -/
noncomputable def enceladus (J : ℝ) : R4 :=
  let L := 200.317 * deg + 262.7319002 * deg * t1 J + 0.25667 * deg * sin (W1 J) + 0.20883 * deg * sin (W2 J)
  let p := 309.107 * deg + 123.44121 * deg * t2 J
  let M := L - p
  let C := 0.55577 * deg * sin M + 0.00168 * deg * sin (2 * M)
  ⟨L + C, 3.94118 / (1 + 0.00485 * cos (M + C)), 0.0262 * deg, 348 * deg - 151.95 * deg * t2 J⟩

/-- `tethys`.  v3/saturnmoons/saturnmoons.go:184-191. -/
noncomputable def tethys (J : ℝ) : R4 :=
  ⟨285.306 * deg + 190.69791226 * deg * t1 J + 2.063 * deg * sin (W0 J) + 0.03409 * deg * sin (3 * W0 J) +
    0.001015 * deg * sin (5 * W0 J), 4.880998, 1.0976 * deg, 111.33 * deg - 72.2441 * deg * t2 J⟩

/-- `dione`.  v3/saturnmoons/saturnmoons.go:192-202. -/
noncomputable def dione (J : ℝ) : R4 :=
  let L := 254.712 * deg + 131.53493193 * deg * t1 J - 0.0215 * deg * sin (W1 J) - 0.01733 * deg * sin (W2 J)
  let p := 174.8 * deg + 30.82 * deg * t2 J
  let M := L - p
  let C := 0.24717 * deg * sin M + 0.00033 * deg * sin (2 * M)
  ⟨L + C, 6.24871 / (1 + 0.002157 * cos (M + C)), 0.0139 * deg, 232 * deg - 30.27 * deg * t2 J⟩

/-- The equation of the centre in `subr`.  v3/saturnmoons/saturnmoons.go:221-229. -/
noncomputable def centre (e M : ℝ) : ℝ :=
  let e2 := e * e
  let e3 := e2 * e
  let e4 := e2 * e2
  let e5 := e3 * e2
  (2 * e - 0.25 * e3 + 0.0520833333 * e5) * sin M + (1.25 * e2 - 0.458333333 * e4) * sin (2 * M) +
    (1.083333333 * e3 - 0.671875 * e5) * sin (3 * M) + 1.072917 * e4 * sin (4 * M) + 1.142708 * e5 * sin (5 * M)

/-- `subr`.  v3/saturnmoons/saturnmoons.go:220-243. -/
noncomputable def subr (lam' p e a Ω i : ℝ) : R4 :=
  let M := lam' - p
  let C := centre e M
  let g := Ω - node0
  let a1 := sin i * sin g
  let a2 := cos inc0 * sin i * cos g - sin inc0 * cos i
  let u := atan2 a1 a2
  let h := cos inc0 * sin i - sin inc0 * cos i * cos g
  let ψ := atan2 (sin inc0 * sin g) h
  ⟨lam' + C + u - g - ψ, a * (1 - e * e) / (1 + e * cos (M + C)), arcsin (Angle.hypot a1 a2), node0 + u⟩

/-- The arguments of `subr`: longitude, pericentre, eccentricity, semimajor axis, node, inclination. -/
structure El where
  lam : ℝ
  p : ℝ
  e : ℝ
  a : ℝ
  Ω : ℝ
  i : ℝ

/-- `subr` applied to elements. -/
noncomputable def El.subr (q : El) : R4 := SatMoons.subr q.lam q.p q.e q.a q.Ω q.i

/-- `rhea`, the arguments of `subr`.  v3/saturnmoons/saturnmoons.go:204-218. -/
noncomputable def rheaEl (J : ℝ) : El :=
  let p' := 342.7 * deg + 10.057 * deg * t2 J
  let a1 := 0.000265 * sin p' + 0.001 * sin (W4 J)
  let a2 := 0.000265 * cos p' + 0.001 * cos (W4 J)
  let N := 345 * deg - 10.057 * deg * t2 J
  ⟨359.244 * deg + 79.6900472 * deg * t1 J + 0.086754 * deg * sin N, atan2 a1 a2, Angle.hypot a1 a2, 8.725924,
    168.8034 * deg + 0.736936 * deg * sin N + 0.041 * deg * sin (W3 J),
    28.0362 * deg + 0.346898 * deg * cos N + 0.0193 * deg * cos (W3 J)⟩

/-- `titan`, the arguments of `subr`; the closure f is called three times.  v3/saturnmoons/saturnmoons.go:245-283. -/
noncomputable def titanEl (J : ℝ) : El :=
  let L := 261.1582 * deg + 22.57697855 * deg * t4 J + 0.074025 * deg * sin (W3 J)
  let i' := 27.45141 * deg + 0.295999 * deg * cos (W3 J)
  let Ω' := 168.66925 * deg + 0.628808 * deg * sin (W3 J)
  let a1 := sin (W7 J) * sin (Ω' - W8 J)
  let a2 := cos (W7 J) * sin i' - sin (W7 J) * cos i' * cos (Ω' - W8 J)
  let g0 := 102.8623 * deg
  let ψ := atan2 a1 a2
  let s := Angle.hypot a1 a2
  let ϖ : ℝ → ℝ := fun g => W4 J + 0.37515 * deg * (sin (2 * g) - sin (2 * g0))
  let f : ℝ → ℝ := fun g => ϖ g - Ω' - ψ
  let g := f (f (W4 J - Ω' - ψ))
  let ϖ := ϖ g
  let g := ϖ - Ω' - ψ
  let e' := 0.029092 + 0.00019048 * (cos (2 * g) - cos (2 * g0))
  let q := 2 * (W5 J - ϖ)
  let b1 := sin i' * sin (Ω' - W8 J)
  let b2 := cos (W7 J) * sin i' * cos (Ω' - W8 J) - sin (W7 J) * cos i'
  let θ := atan2 b1 b2 + W8 J
  let u := 2 * W5 J - 2 * θ + ψ
  let h := 0.9375 * e' * e' * sin q + 0.1875 * s * s * sin (2 * (W5 J - θ))
  ⟨L - 0.254744 * deg * (e1 J * sin (W6 J) + 0.75 * e1 J * e1 J * sin (2 * W6 J) + h), ϖ + 0.159215 * deg * sin q,
    e' + 0.002778797 * e' * cos q, 20.216193, Ω' + 0.031843 * deg * s * sin u / sin i', i' + 0.031843 * deg * s * cos u⟩

/-- `hyperion`, the arguments of `subr`.  v3/saturnmoons/saturnmoons.go:285-319. -/
noncomputable def hyperionEl (J : ℝ) : El :=
  let η := 92.39 * deg + 0.5621071 * deg * t6 J
  let ζ := 148.19 * deg - 19.18 * deg * t8 J
  let θ := 184.8 * deg - 35.41 * deg * t9 J
  let θ' := θ - 7.5 * deg
  let as := 176 * deg + 12.22 * deg * t8 J
  let bs := 8 * deg + 24.44 * deg * t8 J
  let cs := bs + 5 * deg
  let ϖ := 69.898 * deg - 18.67088 * deg * t8 J
  let φ := 2 * (ϖ - W5 J)
  let χ := 94.9 * deg - 2.292 * deg * t8 J
  ⟨177.047 * deg + 16.91993829 * deg * t6 J + 0.15648 * deg * sin χ + 9.142 * deg * sin η + 0.007 * deg * sin (2 * η) -
      0.014 * deg * sin (3 * η) + 0.2275 * deg * sin (ζ + η) + 0.2112 * deg * sin (ζ - η) - 0.26 * deg * sin ζ -
      0.0098 * deg * sin (2 * ζ) - 0.013 * deg * sin as + 0.017 * deg * sin bs - 0.0303 * deg * sin φ,
    ϖ + 0.15648 * deg * sin χ - 0.4457 * deg * sin η - 0.2657 * deg * sin (ζ + η) - 0.3573 * deg * sin (ζ - η) -
      12.872 * deg * sin ζ + 1.668 * deg * sin (2 * ζ) - 0.2419 * deg * sin (3 * ζ) - 0.07 * deg * sin φ,
    0.103458 - 0.004099 * cos η - 0.000167 * cos (ζ + η) + 0.000235 * cos (ζ - η) + 0.02303 * cos ζ - 0.00212 * cos (2 * ζ) +
      0.000151 * cos (3 * ζ) + 0.00013 * cos φ,
    24.50601 - 0.08686 * cos η - 0.00166 * cos (ζ + η) + 0.00175 * cos (ζ - η),
    168.6812 * deg + 1.40136 * deg * cos χ + 0.68599 * deg * sin (W3 J) - 0.0392 * deg * sin cs + 0.0366 * deg * sin θ',
    27.3347 * deg + 0.6434886 * deg * cos χ + 0.315 * deg * cos (W3 J) + 0.018 * deg * cos θ - 0.018 * deg * cos cs⟩

/-- `iapetus`, the arguments of `subr`.  v3/saturnmoons/saturnmoons.go:321-368. -/
noncomputable def iapetusEl (J : ℝ) : El :=
  let L := 261.1582 * deg + 22.57697855 * deg * t4 J
  let ϖ' := 91.796 * deg + 0.562 * deg * t7 J
  let ψ := 4.367 * deg - 0.195 * deg * t7 J
  let θ := 146.819 * deg - 3.198 * deg * t7 J
  let φ := 60.47 * deg + 1.521 * deg * t7 J
  let Φ := 205.055 * deg - 2.091 * deg * t7 J
  let e' := 0.028298 + 0.001156 * t11 J
  let ϖ0 := 352.91 * deg + 11.71 * deg * t11 J
  let μ := 76.3852 * deg + 4.53795125 * deg * t10 J
  let i' := hornerR (t11 J) [18.4602 * deg, -0.9518 * deg, -0.072 * deg, 0.0054 * deg]
  let Ω' := hornerR (t11 J) [143.198 * deg, -3.919 * deg, 0.116 * deg, 0.008 * deg]
  let l := μ - ϖ0
  let g := ϖ0 - Ω' - ψ
  let g1 := ϖ0 - Ω' - φ
  let ls := W5 J - ϖ'
  let gs := ϖ' - θ
  let lT := L - W4 J
  let gT := W4 J - Φ
  let u1 := 2 * (l + g - ls - gs)
  let u2 := l + g1 - lT - gT
  let u3 := l + 2 * (g - ls - gs)
  let u4 := lT + gT - g1
  let u5 := 2 * (ls + gs)
  let v5 := l + g1 + lT + gT + φ
  let w := 0.08077 * deg * sin (g1 - gT) + 0.02139 * deg * sin (u5 - 2 * g) - 0.00676 * deg * sin u3 + 0.0138 * deg * sin l +
    0.01632 * deg * sin (l + u2) + 0.03547 * deg * sin u4
  let w' := 0.04204 * deg * sin (u5 + ψ) + 0.00235 * deg * sin v5 + 0.00358 * deg * sin (u2 + φ)
  ⟨μ - 0.04299 * deg * sin u2 - 0.00789 * deg * sin u1 - 0.06312 * deg * sin ls - 0.00295 * deg * sin (2 * ls) -
      0.02231 * deg * sin u5 + 0.0065 * deg * sin (u5 + ψ),
    ϖ0 + w / e',
    e' - 0.0014097 * cos (g1 - gT) + 0.0003733 * cos (u5 - 2 * g) + 0.000118 * cos u3 + 0.0002408 * cos l +
      0.0002849 * cos (l + u2) + 0.000619 * cos u4,
    58.935028 + 0.004638 * cos u1 + 0.058222 * cos u2,
    Ω' + w' / sin i',
    i' + 0.04204 * deg * cos (u5 + ψ) + 0.00235 * deg * cos v5 + 0.0036 * deg * cos (u2 + φ)⟩

/-- The eight satellites.  v3/saturnmoons/saturnmoons.go:56-65. -/
noncomputable def moons (J : ℝ) : List R4 :=
  [mimas J, enceladus J, tethys J, dione J, (rheaEl J).subr, (titanEl J).subr, (hyperionEl J).subr, (iapetusEl J).subr]

/-- The closure `f`, given the distance so far; (s, β, R) is the Sun.  The Sun's latitude is neglected in x and y.
v3/saturnmoons/saturnmoons.go:35-46. -/
noncomputable def geo (saturn : Planet) (jde : ℝ) (s : ℝ × ℝ × ℝ) (Δ : ℝ) : ℝ × ℝ × ℝ :=
  let q := fk5At saturn (jde - LightTime Δ) (jde - LightTime Δ)
  (q.2.2 * cos q.2.1 * cos q.1 + s.2.2 * cos s.1, q.2.2 * cos q.2.1 * sin q.1 + s.2.2 * sin s.1,
    q.2.2 * sin q.2.1 + s.2.2 * sin s.2.1)

/-- The length of (x, y, z).  v3/saturnmoons/saturnmoons.go:45. -/
noncomputable def len (v : ℝ × ℝ × ℝ) : ℝ := sqrt (v.1 * v.1 + v.2.1 * v.2.1 + v.2.2 * v.2.2)

/-- The result of both calls of `f`, and the date JDE left by the second.  v3/saturnmoons/saturnmoons.go:47-48. -/
noncomputable def geo2 (earth saturn : Planet) (jde : ℝ) : ℝ × ℝ × ℝ :=
  geo saturn jde (TrueVSOP87 earth jde) (len (geo saturn jde (TrueVSOP87 earth jde) 9))
noncomputable def JDE (earth saturn : Planet) (jde : ℝ) : ℝ :=
  jde - LightTime (len (geo saturn jde (TrueVSOP87 earth jde) 9))

/-- (λ0, β0): the direction of Saturn referred to the equinox B1950.0.  v3/saturnmoons/saturnmoons.go:49-54. -/
noncomputable def sight (v : ℝ × ℝ × ℝ) (jde : ℝ) : Precess.Ecliptic ℝ :=
  let ε := Nutation.MeanObliquity (JulianYearToJDE (JDEToJulianYear jde))
  Precess.eclipticPositionVal ⟨atan2 v.2.1 v.1, arctan (v.2.2 / Angle.hypot v.1 v.2.1)⟩
    (JDEToJulianYear jde) (JDEToJulianYear 2433282.4235) 0 0 (sin ε) (cos ε)

/-- The coordinates of a satellite referred to the plane of the ring.  v3/saturnmoons/saturnmoons.go:67-77. -/
noncomputable def ringXYZ (q : R4) : ℝ × ℝ × ℝ :=
  let u := q.lam - q.Ω
  let w := q.Ω - node0
  (q.r * (cos u * cos w - sin u * cos q.γ * sin w), q.r * (sin u * cos w * cos q.γ + cos u * sin w), q.r * sin u * sin q.γ)

/-- (A, B, C) of a point.  v3/saturnmoons/saturnmoons.go:79-95. -/
noncomputable def ABC (lam0 β0 : ℝ) (x : ℝ × ℝ × ℝ) : ℝ × ℝ × ℝ :=
  let a := x.1
  let b := cos inc0 * x.2.1 - sin inc0 * x.2.2
  let c := sin inc0 * x.2.1 + cos inc0 * x.2.2
  let a' := cos node0 * a - sin node0 * b
  let b' := sin node0 * a + cos node0 * b
  let A := a' * sin lam0 - b' * cos lam0
  let b'' := a' * cos lam0 + b' * sin lam0
  (A, b'' * cos β0 + c * sin β0, c * cos β0 - b'' * sin β0)

/-- D, from the pole of the ring.  v3/saturnmoons/saturnmoons.go:78, 96. -/
noncomputable def posD (lam0 β0 : ℝ) : ℝ :=
  let p := ABC lam0 β0 (0, 0, 1)
  atan2 p.1 p.2.2

/-- (X, Y, Z) seen from the Earth, before the corrections.  v3/saturnmoons/saturnmoons.go:97-101. -/
noncomputable def seen (lam0 β0 : ℝ) (q : R4) : ℝ × ℝ × ℝ :=
  let p := ABC lam0 β0 (ringXYZ q)
  let D := posD lam0 β0
  (p.1 * cos D - p.2.2 * sin D, p.1 * sin D + p.2.2 * cos D, p.2.1)

/-- The corrections for light time and perspective.  v3/saturnmoons/saturnmoons.go:102-106. -/
noncomputable def corrected (Δ k r : ℝ) (v : ℝ × ℝ × ℝ) : ℝ × ℝ :=
  let d := v.1 / r
  let X := v.1 + |v.2.2| / k * sqrt (1 - d * d)
  let W := Δ / (Δ + v.2.2 / 2475)
  (X * W, v.2.1 * W)

/-- The constants k.  v3/saturnmoons/saturnmoons.go:111. -/
noncomputable def k : List ℝ := [20947, 23715, 26382, 29876, 35313, 53800, 59222, 91820]

/-- `Positions`.  v3/saturnmoons/saturnmoons.go:28-109. -/
noncomputable def Positions (jde : ℝ) (earth saturn : Planet) : List (ℝ × ℝ) :=
  let v := geo2 earth saturn jde
  let s := sight v jde
  ((moons (JDE earth saturn jde)).zip k).map fun qk => corrected (len v) qk.2 qk.1.r (seen s.Lon s.Lat qk.1)

end Verif.Model.SatMoons
