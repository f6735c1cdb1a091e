import Verif.Model.SaturnMoons
import Verif.Model.Deltat
/-
Model of jupitermoons.E5 (v3/jupitermoons/jupitermoons.go:80-447).  Exact real arithmetic.  The sums of periodic terms are lists of coefficient
and argument; in Σ1 … Σ4 the factor p of every term is taken out of the sum.  Written by a script from the source.
-/
namespace Verif.Model.JupE5

open Real Verif.Go Verif.Model Verif.Model.Solar Verif.Model.PlanetPhys Verif.Model.Elliptic

/-- Mean longitudes.  v3/jupitermoons/jupitermoons.go:107-110. -/
noncomputable def l1 (t : ℝ) : ℝ := 106.07719 * deg + 203.48895579 * deg * t
noncomputable def l2 (t : ℝ) : ℝ := 175.73161 * deg + 101.374724735 * deg * t
noncomputable def l3 (t : ℝ) : ℝ := 120.55883 * deg + 50.317609207 * deg * t
noncomputable def l4 (t : ℝ) : ℝ := 84.44459 * deg + 21.571071177 * deg * t

/-- Longitudes of the perijoves.  v3/jupitermoons/jupitermoons.go:111-114. -/
noncomputable def per1 (t : ℝ) : ℝ := 97.0881 * deg + 0.16138586 * deg * t
noncomputable def per2 (t : ℝ) : ℝ := 154.8663 * deg + 0.04726307 * deg * t
noncomputable def per3 (t : ℝ) : ℝ := 188.184 * deg + 0.00712734 * deg * t
noncomputable def per4 (t : ℝ) : ℝ := 335.2868 * deg + 0.00184 * deg * t

/-- Longitudes of the nodes.  v3/jupitermoons/jupitermoons.go:115-118. -/
noncomputable def om1 (t : ℝ) : ℝ := 312.3346 * deg - 0.13279386 * deg * t
noncomputable def om2 (t : ℝ) : ℝ := 100.4411 * deg - 0.03263064 * deg * t
noncomputable def om3 (t : ℝ) : ℝ := 119.1942 * deg - 0.00717703 * deg * t
noncomputable def om4 (t : ℝ) : ℝ := 322.6186 * deg - 0.00175934 * deg * t

/-- Γ, Φλ, ψ, G, Gʹ, Π.  v3/jupitermoons/jupitermoons.go:119-125. -/
noncomputable def Gam (t : ℝ) : ℝ :=
  0.33033 * deg * sin (163.679 * deg + 0.0010512 * deg * t) + 0.03439 * deg * sin (34.486 * deg - 0.0161731 * deg * t)
noncomputable def Phl (t : ℝ) : ℝ := 199.6766 * deg + 0.1737919 * deg * t
noncomputable def psi (t : ℝ) : ℝ := 316.5182 * deg - 0.00000208 * deg * t
noncomputable def G (t : ℝ) : ℝ := 30.23756 * deg + 0.0830925701 * deg * t + Gam t
noncomputable def G' (t : ℝ) : ℝ := 31.97853 * deg + 0.0334597339 * deg * t
noncomputable def Pi0 : ℝ := 13.469942 * deg

/-- Σ1: coefficients in degrees and arguments.  v3/jupitermoons/jupitermoons.go:127-147. -/
noncomputable def S1l (t : ℝ) : List (ℝ × ℝ) :=
  [(0.47259, 2 * (l1 t - l2 t)), (-0.03478, per3 t - per4 t), (0.01081, l2 t - 2 * l3 t + per3 t), (0.00738, Phl t),
   (0.00713, l2 t - 2 * l3 t + per2 t), (-0.00674, per1 t + per3 t - 2 * Pi0 - 2 * G t), (0.00666, l2 t - 2 * l3 t + per4 t),
   (0.00445, l1 t - per3 t), (-0.00354, l1 t - l2 t), (-0.00317, 2 * psi t - 2 * Pi0), (0.00265, l1 t - per4 t), (-0.00186, G t),
   (0.00162, per2 t - per3 t), (0.00158, 4 * (l1 t - l2 t)), (-0.00155, l1 t - l3 t), (-0.00138, psi t + om3 t - 2 * Pi0 - 2 * G t),
   (-0.00115, 2 * (l1 t - 2 * l2 t + om2 t)), (0.00089, per2 t - per4 t), (0.00085, l1 t + per3 t - 2 * Pi0 - 2 * G t), (0.00083, om2 t - om3 t),
   (0.00053, psi t - om2 t)]
noncomputable def S1 (t : ℝ) : ℝ := series sin (S1l t) * deg

/-- L1.  v3/jupitermoons/jupitermoons.go:278. -/
noncomputable def L1 (t : ℝ) : ℝ := l1 t + S1 t

/-- Σ2: coefficients in degrees and arguments.  v3/jupitermoons/jupitermoons.go:148-184. -/
noncomputable def S2l (t : ℝ) : List (ℝ × ℝ) :=
  [(1.06476, 2 * (l2 t - l3 t)), (0.04256, l1 t - 2 * l2 t + per3 t), (0.03581, l2 t - per3 t), (0.02395, l1 t - 2 * l2 t + per4 t),
   (0.01984, l2 t - per4 t), (-0.01778, Phl t), (0.01654, l2 t - per2 t), (0.01334, l2 t - 2 * l3 t + per2 t), (0.01294, per3 t - per4 t),
   (-0.01142, l2 t - l3 t), (-0.01057, G t), (-0.00775, 2 * (psi t - Pi0)), (0.00524, 2 * (l1 t - l2 t)), (-0.0046, l1 t - l3 t),
   (0.00316, psi t - 2 * G t + om3 t - 2 * Pi0), (-0.00203, per1 t + per3 t - 2 * Pi0 - 2 * G t), (0.00146, psi t - om3 t), (-0.00145, 2 * G t),
   (0.00125, psi t - om4 t), (-0.00115, l1 t - 2 * l3 t + per3 t), (-0.00094, 2 * (l2 t - om2 t)), (0.00086, 2 * (l1 t - 2 * l2 t + om2 t)),
   (-0.00086, 5 * G' t - 2 * G t + 52.225 * deg), (-0.00078, l2 t - l4 t), (-0.00064, 3 * l3 t - 7 * l4 t + 4 * per4 t), (0.00064, per1 t - per4 t),
   (-0.00063, l1 t - 2 * l3 t + per4 t), (0.00058, om3 t - om4 t), (0.00056, 2 * (psi t - Pi0 - G t)), (0.00056, 2 * (l2 t - l4 t)),
   (0.00055, 2 * (l1 t - l3 t)), (0.00052, 3 * l3 t - 7 * l4 t + per3 t + 3 * per4 t), (-0.00043, l1 t - per3 t), (0.00041, 5 * (l2 t - l3 t)),
   (0.00041, per4 t - Pi0), (0.00032, om2 t - om3 t), (0.00032, 2 * (l3 t - G t - Pi0))]
noncomputable def S2 (t : ℝ) : ℝ := series sin (S2l t) * deg

/-- L2.  v3/jupitermoons/jupitermoons.go:279. -/
noncomputable def L2 (t : ℝ) : ℝ := l2 t + S2 t

/-- Σ3: coefficients in degrees and arguments.  v3/jupitermoons/jupitermoons.go:185-227. -/
noncomputable def S3l (t : ℝ) : List (ℝ × ℝ) :=
  [(0.1649, l3 t - per3 t), (0.09081, l3 t - per4 t), (-0.06907, l2 t - l3 t), (0.03784, per3 t - per4 t), (0.01846, 2 * (l3 t - l4 t)),
   (-0.0134, G t), (-0.01014, 2 * (psi t - Pi0)), (0.00704, l2 t - 2 * l3 t + per3 t), (-0.0062, l2 t - 2 * l3 t + per2 t), (-0.00541, l3 t - l4 t),
   (0.00381, l2 t - 2 * l3 t + per4 t), (0.00235, psi t - om3 t), (0.00198, psi t - om4 t), (0.00176, Phl t), (0.0013, 3 * (l3 t - l4 t)),
   (0.00125, l1 t - l3 t), (-0.00119, 5 * G' t - 2 * G t + 52.225 * deg), (0.00109, l1 t - l2 t), (-0.001, 3 * l3 t - 7 * l4 t + 4 * per4 t),
   (0.00091, om3 t - om4 t), (0.0008, 3 * l3 t - 7 * l4 t + per3 t + 3 * per4 t), (-0.00075, 2 * l2 t - 3 * l3 t + per3 t),
   (0.00072, per1 t + per3 t - 2 * Pi0 - 2 * G t), (0.00069, per4 t - Pi0), (-0.00058, 2 * l3 t - 3 * l4 t + per4 t),
   (-0.00057, l3 t - 2 * l4 t + per4 t), (0.00056, l3 t + per3 t - 2 * Pi0 - 2 * G t), (-0.00052, l2 t - 2 * l3 t + per1 t),
   (-0.00050, per2 t - per3 t), (0.00048, l3 t - 2 * l4 t + per3 t), (-0.00045, 2 * l2 t - 3 * l3 t + per4 t), (-0.00041, per2 t - per4 t),
   (-0.00038, 2 * G t), (-0.00037, per3 t - per4 t + om3 t - om4 t), (-0.00032, 3 * l3 t - 7 * l4 t + 2 * per3 t + 2 * per4 t),
   (0.0003, 4 * (l3 t - l4 t)), (0.00029, l3 t + per4 t - 2 * Pi0 - 2 * G t), (-0.00028, om3 t + psi t - 2 * Pi0 - 2 * G t),
   (0.00026, l3 t - Pi0 - G t), (0.00024, l2 t - 3 * l3 t + 2 * l4 t), (0.00021, 2 * (l3 t - Pi0 - G t)), (-0.00021, l3 t - per2 t),
   (0.00017, 2 * (l3 t - per3 t))]
noncomputable def S3 (t : ℝ) : ℝ := series sin (S3l t) * deg

/-- L3.  v3/jupitermoons/jupitermoons.go:280. -/
noncomputable def L3 (t : ℝ) : ℝ := l3 t + S3 t

/-- Σ4: coefficients in degrees and arguments.  v3/jupitermoons/jupitermoons.go:228-277. -/
noncomputable def S4l (t : ℝ) : List (ℝ × ℝ) :=
  [(0.84287, l4 t - per4 t), (0.03431, per4 t - per3 t), (-0.03305, 2 * (psi t - Pi0)), (-0.03211, G t), (-0.01862, l4 t - per3 t),
   (0.01186, psi t - om4 t), (0.00623, l4 t + per4 t - 2 * G t - 2 * Pi0), (0.00387, 2 * (l4 t - per4 t)),
   (-0.00284, 5 * G' t - 2 * G t + 52.225 * deg), (-0.00234, 2 * (psi t - per4 t)), (-0.00223, l3 t - l4 t), (-0.00208, l4 t - Pi0),
   (0.00178, psi t + om4 t - 2 * per4 t), (0.00134, per4 t - Pi0), (0.00125, 2 * (l4 t - G t - Pi0)), (-0.00117, 2 * G t),
   (-0.00112, 2 * (l3 t - l4 t)), (0.00107, 3 * l3 t - 7 * l4 t + 4 * per4 t), (0.00102, l4 t - G t - Pi0), (0.00096, 2 * l4 t - psi t - om4 t),
   (0.00087, 2 * (psi t - om4 t)), (-0.00085, 3 * l3 t - 7 * l4 t + per3 t + 3 * per4 t), (0.00085, l3 t - 2 * l4 t + per4 t),
   (-0.00081, 2 * (l4 t - psi t)), (0.00071, l4 t + per4 t - 2 * Pi0 - 3 * G t), (0.00061, l1 t - l4 t), (-0.00056, psi t - om3 t),
   (-0.00054, l3 t - 2 * l4 t + per3 t), (0.00051, l2 t - l4 t), (0.00042, 2 * (psi t - G t - Pi0)), (0.00039, 2 * (per4 t - om4 t)),
   (0.00036, psi t + Pi0 - per4 t - om4 t), (0.00035, 2 * G' t - G t + 188.37 * deg), (-0.00035, l4 t - per4 t + 2 * Pi0 - 2 * psi t),
   (-0.00032, l4 t + per4 t - 2 * Pi0 - G t), (0.0003, 2 * G' t - 2 * G t + 149.15 * deg), (0.00029, 3 * l3 t - 7 * l4 t + 2 * per3 t + 2 * per4 t),
   (0.00028, l4 t - per4 t + 2 * psi t - 2 * Pi0), (-0.00028, 2 * (l4 t - om4 t)), (-0.00027, per3 t - per4 t + om3 t - om4 t),
   (-0.00026, 5 * G' t - 3 * G t + 188.37 * deg), (0.00025, om4 t - om3 t), (-0.00025, l2 t - 3 * l3 t + 2 * l4 t), (-0.00023, 3 * (l3 t - l4 t)),
   (0.00021, 2 * l4 t - 2 * Pi0 - 3 * G t), (-0.00021, 2 * l3 t - 3 * l4 t + per4 t), (0.00019, l4 t - per4 t - G t),
   (-0.00019, 2 * l4 t - per3 t - per4 t), (-0.00018, l4 t - per4 t + G t), (-0.00016, l4 t + per3 t - 2 * Pi0 - 2 * G t)]
noncomputable def S4 (t : ℝ) : ℝ := series sin (S4l t) * deg

/-- L4.  v3/jupitermoons/jupitermoons.go:281. -/
noncomputable def L4 (t : ℝ) : ℝ := l4 t + S4 t

/-- B[0]: the series whose arc tangent is the latitude.  v3/jupitermoons/jupitermoons.go:291-297. -/
noncomputable def B1l (t : ℝ) : List (ℝ × ℝ) :=
  [(0.0006393, L1 t - om1 t), (0.0001825, L1 t - om2 t), (0.0000329, L1 t - om3 t), (-0.0000311, L1 t - psi t), (0.0000093, L1 t - om4 t),
   (0.0000075, 3 * L1 t - 4 * l2 t - 1.9927 * S1 t + om2 t), (0.0000046, L1 t + psi t - 2 * Pi0 - 2 * G t)]
noncomputable def B1 (t : ℝ) : ℝ := arctan (series sin (B1l t))

/-- B[1]: the series whose arc tangent is the latitude.  v3/jupitermoons/jupitermoons.go:298-306. -/
noncomputable def B2l (t : ℝ) : List (ℝ × ℝ) :=
  [(0.0081004, L2 t - om2 t), (0.0004512, L2 t - om3 t), (-0.0003284, L2 t - psi t), (0.0001160, L2 t - om4 t),
   (0.0000272, l1 t - 2 * l3 t + 1.0146 * S2 t + om2 t), (-0.0000144, L2 t - om1 t), (0.0000143, L2 t + psi t - 2 * Pi0 - 2 * G t),
   (0.0000035, L2 t - psi t + G t), (-0.0000028, l1 t - 2 * l3 t + 1.0146 * S2 t + om3 t)]
noncomputable def B2 (t : ℝ) : ℝ := arctan (series sin (B2l t))

/-- B[2]: the series whose arc tangent is the latitude.  v3/jupitermoons/jupitermoons.go:307-317. -/
noncomputable def B3l (t : ℝ) : List (ℝ × ℝ) :=
  [(0.0032402, L3 t - om3 t), (-0.0016911, L3 t - psi t), (0.0006847, L3 t - om4 t), (-0.0002797, L3 t - om2 t),
   (0.0000321, L3 t + psi t - 2 * Pi0 - 2 * G t), (0.0000051, L3 t - psi t + G t), (-0.0000045, L3 t - psi t - G t),
   (-0.0000045, L3 t + psi t - 2 * Pi0), (0.0000037, L3 t + psi t - 2 * Pi0 - 3 * G t), (0.000003, 2 * l2 t - 3 * L3 t + 4.03 * S3 t + om2 t),
   (-0.0000021, 2 * l2 t - 3 * L3 t + 4.03 * S3 t + om3 t)]
noncomputable def B3 (t : ℝ) : ℝ := arctan (series sin (B3l t))

/-- B[3]: the series whose arc tangent is the latitude.  v3/jupitermoons/jupitermoons.go:318-325. -/
noncomputable def B4l (t : ℝ) : List (ℝ × ℝ) :=
  [(-0.0076579, L4 t - psi t), (0.0044134, L4 t - om4 t), (-0.0005112, L4 t - om3 t), (0.0000773, L4 t + psi t - 2 * Pi0 - 2 * G t),
   (0.0000104, L4 t - psi t + G t), (-0.0000102, L4 t - psi t - G t), (0.0000088, L4 t + psi t - 2 * Pi0 - 3 * G t),
   (-0.0000038, L4 t + psi t - 2 * Pi0 - G t)]
noncomputable def B4 (t : ℝ) : ℝ := arctan (series sin (B4l t))

/-- R[0].  v3/jupitermoons/jupitermoons.go:328-335. -/
noncomputable def R1l (t : ℝ) : List (ℝ × ℝ) :=
  [(-0.0041339, 2 * (l1 t - l2 t)), (-0.0000387, l1 t - per3 t), (-0.0000214, l1 t - per4 t), (0.000017, l1 t - l2 t),
   (-0.0000131, 4 * (l1 t - l2 t)), (0.0000106, l1 t - l3 t), (-0.0000066, l1 t + per3 t - 2 * Pi0 - 2 * G t)]
noncomputable def R1 (t : ℝ) : ℝ := 5.90569 * (1 + series cos (R1l t))

/-- R[1].  v3/jupitermoons/jupitermoons.go:336-347. -/
noncomputable def R2l (t : ℝ) : List (ℝ × ℝ) :=
  [(0.0093848, l1 t - l2 t), (-0.0003116, l2 t - per3 t), (-0.0001744, l2 t - per4 t), (-0.0001442, l2 t - per2 t), (0.0000553, l2 t - l3 t),
   (0.0000523, l1 t - l3 t), (-0.0000290, 2 * (l1 t - l2 t)), (0.0000164, 2 * (l2 t - om2 t)), (0.0000107, l1 t - 2 * l3 t + per3 t),
   (-0.0000102, l2 t - per1 t), (-0.0000091, 2 * (l1 t - l3 t))]
noncomputable def R2 (t : ℝ) : ℝ := 9.39657 * (1 + series cos (R2l t))

/-- R[2].  v3/jupitermoons/jupitermoons.go:348-358. -/
noncomputable def R3l (t : ℝ) : List (ℝ × ℝ) :=
  [(-0.0014388, l3 t - per3 t), (-0.0007917, l3 t - per4 t), (0.0006342, l2 t - l3 t), (-0.0001761, 2 * (l3 t - l4 t)), (0.0000294, l3 t - l4 t),
   (-0.0000156, 3 * (l3 t - l4 t)), (0.0000156, l1 t - l3 t), (-0.0000153, l1 t - l2 t), (0.000007, 2 * l2 t - 3 * l3 t + per3 t),
   (-0.0000051, l3 t + per3 t - 2 * Pi0 - 2 * G t)]
noncomputable def R3 (t : ℝ) : ℝ := 14.98832 * (1 + series cos (R3l t))

/-- R[3].  v3/jupitermoons/jupitermoons.go:359-375. -/
noncomputable def R4l (t : ℝ) : List (ℝ × ℝ) :=
  [(-0.0073546, l4 t - per4 t), (0.0001621, l4 t - per3 t), (0.0000974, l3 t - l4 t), (-0.0000543, l4 t + per4 t - 2 * Pi0 - 2 * G t),
   (-0.0000271, 2 * (l4 t - per4 t)), (0.0000182, l4 t - Pi0), (0.0000177, 2 * (l3 t - l4 t)), (-0.0000167, 2 * l4 t - psi t - om4 t),
   (0.0000167, psi t - om4 t), (-0.0000155, 2 * (l4 t - Pi0 - G t)), (0.0000142, 2 * (l4 t - psi t)), (0.0000105, l1 t - l4 t),
   (0.0000092, l2 t - l4 t), (-0.0000089, l4 t - Pi0 - G t), (-0.0000062, l4 t + per4 t - 2 * Pi0 - 3 * G t), (0.0000048, 2 * (l4 t - om4 t))]
noncomputable def R4 (t : ℝ) : ℝ := 26.36273 * (1 + series cos (R4l t))

/-- The closure `f`, given the light time so far; (s, β, R) is the Sun.  v3/jupitermoons/jupitermoons.go:90-99. -/
noncomputable def geo (jupiter : Planet) (jde : ℝ) (s : ℝ × ℝ × ℝ) (τ : ℝ) : ℝ × ℝ × ℝ :=
  let q := jupiter (jde - τ)
  (q.2.2 * cos q.2.1 * cos q.1 + s.2.2 * cos s.1, q.2.2 * cos q.2.1 * sin q.1 + s.2.2 * sin s.1,
    q.2.2 * sin q.2.1 + s.2.2 * sin s.2.1)

/-- (x, y, z) after both calls of `f`.  v3/jupitermoons/jupitermoons.go:88-101. -/
noncomputable def geo2 (earth jupiter : Planet) (jde : ℝ) : ℝ × ℝ × ℝ :=
  let s := TrueVSOP87 earth jde
  geo jupiter jde s (LightTime (SatMoons.len (geo jupiter jde s (LightTime 5))))

/-- λ0, β0.  v3/jupitermoons/jupitermoons.go:102-103. -/
noncomputable def lam0 (v : ℝ × ℝ × ℝ) : ℝ := atan2 v.2.1 v.1
noncomputable def bet0 (v : ℝ × ℝ × ℝ) : ℝ := arctan (v.2.2 / Angle.hypot v.1 v.2.1)

/-- t.  v3/jupitermoons/jupitermoons.go:98, 104. -/
noncomputable def time (v : ℝ × ℝ × ℝ) (jde : ℝ) : ℝ := jde - 2443000.5 - LightTime (SatMoons.len v)

/-- P and I.  v3/jupitermoons/jupitermoons.go:378-385. -/
noncomputable def prec (jde : ℝ) : ℝ :=
  let T0 := (jde - 2433282.423) / 36525
  (1.3966626 * deg + 0.0003088 * deg * T0) * T0
noncomputable def incl (jde : ℝ) : ℝ :=
  let T := (jde - 2415020.0) / 36525
  3.120262 * deg + 0.0006 * deg * T

/-- X, Y, Z of a satellite from longitude, latitude and radius.  v3/jupitermoons/jupitermoons.go:380-392. -/
noncomputable def XYZ (L ψ B R : ℝ) : ℝ × ℝ × ℝ :=
  (R * cos (L - ψ) * cos B, R * sin (L - ψ) * cos B, R * sin B)

/-- Steps 1 to 4.  v3/jupitermoons/jupitermoons.go:407-422. -/
noncomputable def steps (I Φ i Ω : ℝ) (x : ℝ × ℝ × ℝ) : ℝ × ℝ × ℝ :=
  let a := x.1
  let b := x.2.1 * cos I - x.2.2 * sin I
  let c := x.2.1 * sin I + x.2.2 * cos I
  let a2 := a * cos Φ - b * sin Φ
  let b2 := a * sin Φ + b * cos Φ
  let b3 := b2 * cos i - c * sin i
  let c3 := b2 * sin i + c * cos i
  (a2 * cos Ω - b3 * sin Ω, a2 * sin Ω + b3 * cos Ω, c3)

/-- Steps 5 and 6: (A, B, C).  v3/jupitermoons/jupitermoons.go:423-430. -/
noncomputable def sky (lam0 β0 : ℝ) (x : ℝ × ℝ × ℝ) : ℝ × ℝ × ℝ :=
  let a := x.1 * sin lam0 - x.2.1 * cos lam0
  let b := x.1 * cos lam0 + x.2.1 * sin lam0
  (a, x.2.2 * sin β0 + b * cos β0, x.2.2 * cos β0 - b * sin β0)

/-- (x, y, z) of a satellite before the corrections; n is the fictitious fifth satellite at the pole.
v3/jupitermoons/jupitermoons.go:432-437. -/
noncomputable def seen (n p : ℝ × ℝ × ℝ) : ℝ × ℝ × ℝ :=
  let D := atan2 n.1 n.2.2
  (p.1 * cos D - p.2.2 * sin D, p.1 * sin D + p.2.2 * cos D, p.2.1)

/-- Differential light time and perspective.  v3/jupitermoons/jupitermoons.go:438-444. -/
noncomputable def corrected (Δ k R : ℝ) (v : ℝ × ℝ × ℝ) : ℝ × ℝ :=
  let d := v.1 / R
  let x := v.1 + |v.2.2| / k * sqrt (1 - d * d)
  let W := Δ / (Δ + v.2.2 / 2095)
  (x * W, v.2.1 * W)

/-- The satellites: longitude, latitude, radius, constant k.  v3/jupitermoons/jupitermoons.go:289-376, 449. -/
noncomputable def sats (t : ℝ) : List (ℝ × ℝ × ℝ × ℝ) :=
  [(L1 t, B1 t, R1 t, 17295), (L2 t, B2 t, R2 t, 21819), (L3 t, B3 t, R3 t, 27558), (L4 t, B4 t, R4 t, 36548)]

/-- One satellite, before the corrections: from L, B, R, with Jupiter's node Ω and inclination i. -/
noncomputable def view (lam0 β0 jde t i Ω L B R : ℝ) : ℝ × ℝ × ℝ :=
  let ψ := psi t + prec jde
  let f := fun x => sky lam0 β0 (steps (incl jde) (ψ - Ω) i Ω x)
  seen (f (0, 0, 1)) (f (XYZ (L + prec jde) ψ B R))

/-- `E5`; `none` would be a panic in package planetelements.  v3/jupitermoons/jupitermoons.go:80-447. -/
noncomputable def E5 (jde : ℝ) (earth jupiter : Planet) : Option (List (ℝ × ℝ)) := do
  let v := geo2 earth jupiter jde
  let t := time v jde
  let Ω ← PlanetElements.Node 4 jde
  let i ← PlanetElements.Inc 4 jde
  pure ((sats t).map fun s => corrected (SatMoons.len v) s.2.2.2 s.2.2.1 (view (lam0 v) (bet0 v) jde t i Ω s.1 s.2.1 s.2.2.1))

end Verif.Model.JupE5
