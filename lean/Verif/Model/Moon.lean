import Verif.Model.Interp
import Mathlib.Analysis.SpecialFunctions.Trigonometric.Basic
/-
Models of packages moonphase, apsis and moonnode.  Exact real arithmetic.  A sum of periodic terms written out in the code is
`series f [(coefficient, argument), …]`; the terms are those of the code in the order of the code.
-/
set_option linter.unusedVariables false

namespace Verif.Model

open Real

/-- `base.Horner` for a nonempty list, by the recursion of v3/base/math.go:20-29; see `Horner_hornerR`. -/
def hornerR (x : ℝ) (c : List ℝ) : ℝ := c.foldr (fun ci y => y * x + ci) 0

/-- A sum of terms coefficient × f(argument). -/
noncomputable def series (f : ℝ → ℝ) (l : List (ℝ × ℝ)) : ℝ := (l.map fun t => t.1 * f t.2).sum

/-- math.Pi / 180, constant `p` of the packages. -/
noncomputable def deg : ℝ := π / 180

namespace Moonphase

/-- `ck`.  v3/moonphase/moonphase.go:13. -/
noncomputable def ck : ℝ := 1 / 1236.85

/-- `mean`.  v3/moonphase/moonphase.go:16-19. -/
noncomputable def mean (T : ℝ) : ℝ := hornerR T [2451550.09766, 29.530588861 / ck, 0.00015437, -0.00000015, 0.00000000073]

/-- `snap`.  v3/moonphase/moonphase.go:22-25.  (Repeated in v3/eclipse/eclipse.go:93-96.) -/
noncomputable def snap (y q : ℝ) : ℝ := ⌊(y - 2000) * 12.3685 - q + 0.5⌋ + q

/-- `MeanNew`.  v3/moonphase/moonphase.go:32-34. -/
noncomputable def MeanNew (year : ℝ) : ℝ := mean (snap year 0 * ck)
/-- `MeanFirst`.  v3/moonphase/moonphase.go:41-43. -/
noncomputable def MeanFirst (year : ℝ) : ℝ := mean (snap year 0.25 * ck)
/-- `MeanFull`.  v3/moonphase/moonphase.go:50-52. -/
noncomputable def MeanFull (year : ℝ) : ℝ := mean (snap year 0.5 * ck)
/-- `MeanLast`.  v3/moonphase/moonphase.go:59-61. -/
noncomputable def MeanLast (year : ℝ) : ℝ := mean (snap year 0.75 * ck)

/-- Type `mp`.  v3/moonphase/moonphase.go:95-99. -/
structure Mp where
  k : ℝ
  T : ℝ
  E : ℝ
  M : ℝ
  M' : ℝ
  F : ℝ
  Ω : ℝ
  A : List ℝ

/-- `newMp` after `snap`.  v3/moonphase/moonphase.go:104-129. -/
noncomputable def newMpK (k : ℝ) : Mp :=
  let p := deg
  let T := k * ck
  { k := k, T := T
    E := hornerR T [1, -0.002516, -0.0000074]
    M := hornerR T [2.5534 * p, 29.1053567 * p / ck, -0.0000014 * p, -0.00000011 * p]
    M' := hornerR T [201.5643 * p, 385.81693528 * p / ck, 0.0107582 * p, 0.00001238 * p, -0.000000058 * p]
    F := hornerR T [160.7108 * p, 390.67050284 * p / ck, -0.0016118 * p, -0.00000227 * p, 0.000000011 * p]
    Ω := hornerR T [124.7746 * p, -1.56375588 * p / ck, 0.0020672 * p, 0.00000215 * p]
    A := [299.7 * p + 0.107408 * p * k - 0.009173 * T * T, 251.88 * p + 0.016321 * p * k, 251.83 * p + 26.651886 * p * k,
      349.42 * p + 36.412478 * p * k, 84.66 * p + 18.206239 * p * k, 141.74 * p + 53.303771 * p * k, 207.17 * p + 2.453732 * p * k,
      154.84 * p + 7.30686 * p * k, 34.52 * p + 27.261239 * p * k, 207.19 * p + 0.121824 * p * k, 291.34 * p + 1.844379 * p * k,
      161.72 * p + 24.198154 * p * k, 239.56 * p + 25.513099 * p * k, 331.55 * p + 3.592518 * p * k] }

/-- `newMp`.  v3/moonphase/moonphase.go:103-130. -/
noncomputable def newMp (y q : ℝ) : Mp := newMpK (snap y q)

/-- `nfc`.  v3/moonphase/moonphase.go:133-159. -/
noncomputable def nfc (m : Mp) (c : List ℝ) : ℝ :=
  let M := m.M; let M' := m.M'; let F := m.F; let Ω := m.Ω; let E := m.E
  series sin
    [(c.getD 0 0, M'), (c.getD 1 0 * E, M), (c.getD 2 0, 2 * M'), (c.getD 3 0, 2 * F), (c.getD 4 0 * E, M' - M), (c.getD 5 0 * E, M' + M),
     (c.getD 6 0 * E * E, 2 * M), (c.getD 7 0, M' - 2 * F), (c.getD 8 0, M' + 2 * F), (c.getD 9 0 * E, 2 * M' + M), (c.getD 10 0, 3 * M'),
     (c.getD 11 0 * E, M + 2 * F), (c.getD 12 0 * E, M - 2 * F), (c.getD 13 0 * E, 2 * M' - M), (c.getD 14 0, Ω), (c.getD 15 0, M' + 2 * M),
     (c.getD 16 0, 2 * (M' - F)), (c.getD 17 0, 3 * M), (c.getD 18 0, M' + M - 2 * F), (c.getD 19 0, 2 * (M' + F)),
     (c.getD 20 0, M' + M + 2 * F), (c.getD 21 0, M' - M + 2 * F), (c.getD 22 0, M' - M - 2 * F), (c.getD 23 0, 3 * M' + M),
     (c.getD 24 0, 4 * M')]

/-- `nc`.  v3/moonphase/moonphase.go:162-188. -/
noncomputable def nc : List ℝ :=
  [-0.4072, 0.17241, 0.01608, 0.01039, 0.00739, -0.00514, 0.00208, -0.00111, -0.00057, 0.00056, -0.00042, 0.00042, 0.00038, -0.00024,
   -0.00017, -0.00007, 0.00004, 0.00004, 0.00003, 0.00003, -0.00003, 0.00003, -0.00002, -0.00002, 0.00002]

/-- `fc`.  v3/moonphase/moonphase.go:191-217. -/
noncomputable def fc : List ℝ :=
  [-0.40614, 0.17302, 0.01614, 0.01043, 0.00734, -0.00515, 0.00209, -0.00111, -0.00057, 0.00056, -0.00042, 0.00042, 0.00038, -0.00024,
   -0.00017, -0.00007, 0.00004, 0.00004, 0.00003, 0.00003, -0.00003, 0.00003, -0.00002, -0.00002, 0.00002]

/-- `flc`.  v3/moonphase/moonphase.go:220-246. -/
noncomputable def flc (m : Mp) : ℝ :=
  let M := m.M; let M' := m.M'; let F := m.F; let Ω := m.Ω; let E := m.E
  series sin
    [(-0.62801, M'), (0.17172 * E, M), (-0.01183 * E, M' + M), (0.00862, 2 * M'), (0.00804, 2 * F), (0.00454 * E, M' - M),
     (0.00204 * E * E, 2 * M), (-0.0018, M' - 2 * F), (-0.0007, M' + 2 * F), (-0.0004, 3 * M'), (-0.00034, 2 * M' - M),
     (0.00032 * E, M + 2 * F), (0.00032 * E, M - 2 * F), (-0.00028 * E * E, M' + 2 * M), (0.00027 * E, 2 * M' + M), (-0.00017, Ω),
     (-0.00005, M' - M - 2 * F), (0.00004, 2 * M' + 2 * F), (-0.00004, M' + M + 2 * F), (0.00004, M' - 2 * M), (0.00003, M' + M - 2 * F),
     (0.00003, 3 * M), (0.00002, 2 * M' - 2 * F), (0.00002, M' - M + 2 * F), (-0.00002, 3 * M' + M)]

/-- `w`.  v3/moonphase/moonphase.go:248-251. -/
noncomputable def w (m : Mp) : ℝ :=
  0.00306 - 0.00038 * m.E * cos m.M + 0.00026 * cos m.M' - 0.00002 * (cos (m.M' - m.M) - cos (m.M' + m.M) - cos (2 * m.F))

/-- `ac`.  v3/moonphase/moonphase.go:262-277. -/
noncomputable def ac : List ℝ :=
  [0.000325, 0.000165, 0.000164, 0.000126, 0.00011, 0.000062, 0.00006, 0.000056, 0.000047, 0.000042, 0.000040, 0.000037, 0.000035, 0.000023]

/-- `a`.  v3/moonphase/moonphase.go:254-260. -/
noncomputable def a (m : Mp) : ℝ := series sin (List.zip ac m.A)

/-- `New` after `snap`.  v3/moonphase/moonphase.go:68. -/
noncomputable def newK (k : ℝ) : ℝ := let m := newMpK k; mean m.T + nfc m nc + a m
/-- `First` after `snap`.  v3/moonphase/moonphase.go:76. -/
noncomputable def firstK (k : ℝ) : ℝ := let m := newMpK k; mean m.T + flc m + w m + a m
/-- `Full` after `snap`.  v3/moonphase/moonphase.go:84. -/
noncomputable def fullK (k : ℝ) : ℝ := let m := newMpK k; mean m.T + nfc m fc + a m
/-- `Last` after `snap`.  v3/moonphase/moonphase.go:92. -/
noncomputable def lastK (k : ℝ) : ℝ := let m := newMpK k; mean m.T + flc m - w m + a m

/-- `New`.  v3/moonphase/moonphase.go:66-69. -/
noncomputable def New (year : ℝ) : ℝ := newK (snap year 0)
/-- `First`.  v3/moonphase/moonphase.go:74-77. -/
noncomputable def First (year : ℝ) : ℝ := firstK (snap year 0.25)
/-- `Full`.  v3/moonphase/moonphase.go:82-85. -/
noncomputable def Full (year : ℝ) : ℝ := fullK (snap year 0.5)
/-- `Last`.  v3/moonphase/moonphase.go:90-93. -/
noncomputable def Last (year : ℝ) : ℝ := lastK (snap year 0.75)

end Moonphase

namespace Apsis

/-- `ck`.  v3/apsis/apsis.go:15. -/
noncomputable def ck : ℝ := 1 / 1325.55

/-- `mean`.  v3/apsis/apsis.go:18-21. -/
noncomputable def mean (T : ℝ) : ℝ := hornerR T [2451534.6698, 27.55454989 / ck, -0.0006691, -0.000001098, 0.0000000052]

/-- `snap`.  v3/apsis/apsis.go:24-27. -/
noncomputable def snap (y h : ℝ) : ℝ := ⌊(y - 1999.97) * 13.2555 - h + 0.5⌋ + h

/-- Type `la`.  v3/apsis/apsis.go:73-76. -/
structure La where
  k : ℝ
  T : ℝ
  D : ℝ
  M : ℝ
  F : ℝ

/-- `newLa` after `snap`.  v3/apsis/apsis.go:81-89. -/
noncomputable def newLaK (k : ℝ) : La :=
  let p := deg
  let T := k * ck
  { k := k, T := T
    D := hornerR T [171.9179 * p, 335.9106046 * p / ck, -0.0100383 * p, -0.00001156 * p, 0.000000055 * p]
    M := hornerR T [347.3477 * p, 27.1577721 * p / ck, -0.000813 * p, -0.000001 * p]
    F := hornerR T [316.6109 * p, 364.5287911 * p / ck, -0.0125053 * p, -0.0000148 * p] }

/-- `pc`.  v3/apsis/apsis.go:93-154. -/
noncomputable def pc (l : La) : ℝ :=
  let D := l.D; let M := l.M; let F := l.F; let T := l.T
  series sin
    [(-1.6769, 2 * D), (0.4589, 4 * D), (-0.1856, 6 * D), (0.0883, 8 * D), ((-0.0773 + 0.00019 * T), 2 * D - M), ((0.0502 - 0.00013 * T), M),
     (-0.046, 10 * D), ((0.0422 - 0.00011 * T), 4 * D - M), (-0.0256, 6 * D - M), (0.0253, 12 * D), (0.0237, D), (0.0162, 8 * D - M),
     (-0.0145, 14 * D), (0.0129, 2 * F), (-0.0112, 3 * D), (-0.0104, 10 * D - M), (0.0086, 16 * D), (0.0069, 12 * D - M), (0.0066, 5 * D),
     (-0.0053, 2 * (D + F)), (-0.0052, 18 * D), (-0.0046, 14 * D - M), (-0.0041, 7 * D), (0.004, 2 * D + M), (0.0032, 20 * D),
     (-0.0032, D + M), (0.0031, 16 * D - M), (-0.0029, 4 * D + M), (0.0027, 9 * D), (0.0027, 4 * D + 2 * F), (-0.0027, 2 * (D - M)),
     (0.0024, 4 * D - 2 * M), (-0.0021, 6 * D - 2 * M), (-0.0021, 22 * D), (-0.0021, 18 * D - M), (0.0019, 6 * D + M), (-0.0018, 11 * D),
     (-0.0014, 8 * D + M), (-0.0014, 4 * D - 2 * F), (-0.0014, 6 * D + 2 * F), (0.0014, 3 * D + M), (-0.0014, 5 * D + M), (0.0013, 13 * D),
     (0.0013, 20 * D - M), (0.0011, 3 * D + 2 * M), (-0.0011, 2 * (2 * D + F - M)), (-0.001, D + 2 * M), (-0.0009, 22 * D - M),
     (-0.0008, 4 * F), (0.0008, 6 * D - 2 * F), (0.0008, 2 * (D - F) + M), (0.0007, 2 * M), (0.0007, 2 * F - M), (0.0007, 2 * D + 4 * F),
     (-0.0006, 2 * (F - M)), (-0.0006, 2 * (D - F + M)), (0.0006, 24 * D), (0.0005, 4 * (D - F)), (0.0005, 2 * (D + M)), (-0.0004, D - M)]

/-- `ac`.  v3/apsis/apsis.go:157-190. -/
noncomputable def ac (l : La) : ℝ :=
  let D := l.D; let M := l.M; let F := l.F; let T := l.T
  series sin
    [(0.4392, 2 * D), (0.0684, 4 * D), ((0.0456 - 0.00011 * T), M), ((0.0426 - 0.00011 * T), 2 * D - M), (0.0212, 2 * F), (-0.0189, D),
     (0.0144, 6 * D), (0.0113, 4 * D - M), (0.0047, 2 * (D + F)), (0.0036, D + M), (0.0035, 8 * D), (0.0034, 6 * D - M),
     (-0.0034, 2 * (D - F)), (0.0022, 2 * (D - M)), (-0.0017, 3 * D), (0.0013, 4 * D + 2 * F), (0.0011, 8 * D - M), (0.001, 4 * D - 2 * M),
     (0.0009, 10 * D), (0.0007, 3 * D + M), (0.0006, 2 * M), (0.0005, 2 * D + M), (0.0005, 2 * (D + M)), (0.0004, 6 * D + 2 * F),
     (0.0004, 6 * D - 2 * M), (0.0004, 10 * D - M), (-0.0004, 5 * D), (-0.0004, 4 * D - 2 * F), (0.0003, 2 * F + M), (0.0003, 12 * D),
     (0.0003, 2 * D + 2 * F - M), (-0.0003, D - M)]

/-- `ap`, in arc seconds.  v3/apsis/apsis.go:193-213. -/
noncomputable def ap (l : La) : ℝ :=
  let D := l.D; let M := l.M; let F := l.F; let T := l.T
  3245.251 + series cos
    [(-9.147, 2 * D), (-0.841, D), (0.697, 2 * F), ((-0.656 + 0.0016 * T), M), (0.355, 4 * D), (0.159, 2 * D - M), (0.127, D + M),
     (0.065, 4 * D - M), (0.052, 6 * D), (0.043, 2 * D + M), (0.031, 2 * (D + F)), (-0.023, 2 * (D - F)), (0.022, 2 * (D - M)),
     (0.019, 2 * (D + M)), (-0.016, 2 * M), (0.014, 6 * D - M), (0.01, 8 * D)]

/-- `pp`, in arc seconds.  v3/apsis/apsis.go:216-265. -/
noncomputable def pp (l : La) : ℝ :=
  let D := l.D; let M := l.M; let F := l.F; let T := l.T
  3629.215 + series cos
    [(63.224, 2 * D), (-6.990, 4 * D), ((2.834 - 0.0071 * T), 2 * D - M), (1.927, 6 * D), (-1.263, D), (-0.702, 8 * D),
     ((0.696 - 0.0017 * T), M), (-0.690, 2 * F), ((-0.629 + 0.0016 * T), 4 * D - M), (-0.392, 2 * (D - F)), (0.297, 10 * D),
     (0.260, 6 * D - M), (0.201, 3 * D), (-0.161, 2 * D + M), (0.157, D + M), (-0.138, 12 * D), (-0.127, 8 * D - M), (0.104, 2 * (D + F)),
     (0.104, 2 * (D - M)), (-0.079, 5 * D), (0.068, 14 * D), (0.067, 10 * D - M), (0.054, 4 * D + M), (-0.038, 12 * D - M),
     (-0.038, 4 * D - 2 * M), (0.037, 7 * D), (-0.037, 4 * D + 2 * F), (-0.035, 16 * D), (-0.030, 3 * D + M), (0.029, D - M),
     (-0.025, 6 * D + M), (0.023, 2 * M), (0.023, 14 * D - M), (-0.023, 2 * (D + M)), (0.022, 6 * D - 2 * M), (-0.021, 2 * D - 2 * F - M),
     (-0.020, 9 * D), (0.019, 18 * D), (0.017, 6 * D + 2 * F), (0.014, 2 * F - M), (-0.014, 16 * D - M), (0.013, 4 * D - 2 * F),
     (0.012, 8 * D + M), (0.011, 11 * D), (0.010, 5 * D + M), (-0.010, 20 * D)]

/-- `MeanPerigee`.  v3/apsis/apsis.go:32-34. -/
noncomputable def MeanPerigee (year : ℝ) : ℝ := mean (snap year 0 * ck)
/-- `MeanApogee`.  v3/apsis/apsis.go:47-49. -/
noncomputable def MeanApogee (year : ℝ) : ℝ := mean (snap year 0.5 * ck)
/-- `Perigee` after `snap`.  v3/apsis/apsis.go:41. -/
noncomputable def perigeeK (k : ℝ) : ℝ := let l := newLaK k; mean l.T + pc l
/-- `Apogee` after `snap`.  v3/apsis/apsis.go:56. -/
noncomputable def apogeeK (k : ℝ) : ℝ := let l := newLaK k; mean l.T + ac l
/-- `Perigee`.  v3/apsis/apsis.go:39-42. -/
noncomputable def Perigee (year : ℝ) : ℝ := perigeeK (snap year 0)
/-- `Apogee`.  v3/apsis/apsis.go:54-57. -/
noncomputable def Apogee (year : ℝ) : ℝ := apogeeK (snap year 0.5)
/-- `ApogeeParallax`, in arc seconds.  v3/apsis/apsis.go:62-64. -/
noncomputable def ApogeeParallax (year : ℝ) : ℝ := ap (newLaK (snap year 0.5))
/-- `PerigeeParallax`, in arc seconds.  v3/apsis/apsis.go:69-71. -/
noncomputable def PerigeeParallax (year : ℝ) : ℝ := pp (newLaK (snap year 0))

end Apsis

namespace Moonnode

/-- `ck`.  v3/moonnode/moonnode.go:36. -/
noncomputable def ck : ℝ := 1 / 1342.23

/-- The snap of `node`.  v3/moonnode/moonnode.go:33-34. -/
noncomputable def snap (y h : ℝ) : ℝ := ⌊(y - 2000.05) * 13.4223 - h + 0.5⌋ + h

/-- `node` after the snap.  v3/moonnode/moonnode.go:35-71. -/
noncomputable def nodeK (k : ℝ) : ℝ :=
  let p := deg
  let T := k * ck
  let D := hornerR T [183.638 * p, 331.73735682 * p / ck, 0.0014852 * p, 0.00000209 * p, -0.00000001 * p]
  let M := hornerR T [17.4006 * p, 26.8203725 * p / ck, 0.0001186 * p, 0.00000006 * p]
  let M' := hornerR T [38.3776 * p, 355.52747313 * p / ck, 0.0123499 * p, 0.000014627 * p, -0.000000069 * p]
  let Ω := hornerR T [123.9767 * p, -1.44098956 * p / ck, 0.0020608 * p, 0.00000214 * p, -0.000000016 * p]
  let V := hornerR T [299.75 * p, 132.85 * p, -0.009173 * p]
  let P := Ω + 272.75 * p - 2.3 * p * T
  let E := hornerR T [1, -0.002516, -0.0000074]
  hornerR T [2451565.1619, 27.212220817 / ck, 0.0002762, 0.000000021, -0.000000000088] + series sin
    [(-0.4721, M'), (-0.1649, 2 * D), (-0.0868, 2 * D - M'), (0.0084, 2 * D + M'), (-0.0083 * E, 2 * D - M), (-0.0039 * E, 2 * D - M - M'),
     (0.0034, 2 * M'), (-0.0031, 2 * (D - M')), (0.003 * E, 2 * D + M), (0.0028 * E, M - M'), (0.0026 * E, M), (0.0025, 4 * D), (0.0024, D),
     (0.0022 * E, M + M'), (0.0017, Ω), (0.0014, 4 * D - M'), (0.0005 * E, 2 * D + M - M'), (0.0004 * E, 2 * D - M + M'),
     (-0.0003 * E, 2 * (D - M)), (0.0003 * E, 4 * D - M), (0.0003, V), (0.0003, P)]

/-- `Ascending`.  v3/moonnode/moonnode.go:19-21. -/
noncomputable def Ascending (year : ℝ) : ℝ := nodeK (snap year 0)
/-- `Descending`.  v3/moonnode/moonnode.go:28-30. -/
noncomputable def Descending (year : ℝ) : ℝ := nodeK (snap year 0.5)

end Moonnode

end Verif.Model
