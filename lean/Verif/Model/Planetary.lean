import Verif.Model.Moon
import Verif.Model.Rise
import Verif.Go.Angle
/-
Models of packages planetary (v3/planetary/planetary.go) and moonmaxdec (v3/moonmaxdec/moonmaxdec.go).  Exact real arithmetic.
`none` is a panic (index out of range).  All rows of the tables are nonempty, so `base.Horner` is `hornerR`.
-/
namespace Verif.Model.Planetary

open Real Verif.Go

/-- Type `ca`.  v3/planetary/planetary.go:166-169. -/
structure Ca where
  A : ℝ
  B : ℝ
  M0 : ℝ
  M1 : ℝ

/-- `mean`: J, M, T.  v3/planetary/planetary.go:18-25. -/
noncomputable def mean (y : ℝ) (a : Ca) : ℝ × ℝ × ℝ :=
  let k : ℝ := ⌊(365.2425 * y + 1721060 - a.A) / a.B + 0.5⌋
  let J := a.A + k * a.B
  (J, pmod (a.M0 + k * a.M1) 360 * π / 180, J2000Century J)

/-- The loop of `sum`.  v3/planetary/planetary.go:31-37. -/
noncomputable def sumLoop (T M : ℝ) : ℝ → List (List ℝ) → ℝ → Option ℝ
  | _, [], j => some j
  | _, [_], _ => none
  | mm, a :: b :: rest, j =>
    let mm := mm + M
    let j := j + sin mm * hornerR T a
    sumLoop T M mm rest (j + cos mm * hornerR T b)

/-- `sum`.  v3/planetary/planetary.go:28-39. -/
noncomputable def sum (T M : ℝ) (c : List (List ℝ)) : Option ℝ :=
  match c with
  | [] => none
  | c0 :: rest => sumLoop T M 0 rest (hornerR T c0)

/-- `ms`.  v3/planetary/planetary.go:42-45. -/
noncomputable def ms (y : ℝ) (a : Ca) (c : List (List ℝ)) : Option ℝ :=
  let (J, M, T) := mean y a
  (sum T M c).map (J + ·)

/-- The loop of `sumA`.  v3/planetary/planetary.go:83-89. -/
noncomputable def addLoop (T : ℝ) : List (ℝ × ℝ) → List (List ℝ) → ℝ → Option ℝ
  | [], _, j => some j
  | (c, f) :: aa, a :: b :: rest, j =>
    let x := (c + f * T) * π / 180
    let j := j + sin x * hornerR T a
    addLoop T aa rest (j + cos x * hornerR T b)
  | _, _, _ => none

/-- `sumA`.  v3/planetary/planetary.go:80-91. -/
noncomputable def sumA (T M : ℝ) (c : List (List ℝ)) (aa : List (ℝ × ℝ)) : Option ℝ :=
  if c.length < 2 * aa.length then none
  else
    let i := c.length - 2 * aa.length
    (sum T M (c.take i)).bind (addLoop T aa (c.drop i))

/-- `msa`.  v3/planetary/planetary.go:94-97. -/
noncomputable def msa (y : ℝ) (a : Ca) (c : List (List ℝ)) (aa : List (ℝ × ℝ)) : Option ℝ :=
  let (J, M, T) := mean y a
  (sumA T M c aa).map (J + ·)

/-- `micA`.  v3/planetary/planetary.go:173. -/
noncomputable def micA : Ca := ⟨2451612.023, 115.8774771, 63.5867, 114.2088742⟩
/-- `mscA`.  v3/planetary/planetary.go:174. -/
noncomputable def mscA : Ca := ⟨2451554.084, 115.8774771, 6.4822, 114.2088742⟩
/-- `vicA`.  v3/planetary/planetary.go:175. -/
noncomputable def vicA : Ca := ⟨2451996.706, 583.921361, 82.7311, 215.513058⟩
/-- `moA`.  v3/planetary/planetary.go:177. -/
noncomputable def moA : Ca := ⟨2452097.382, 779.936104, 181.9573, 48.705244⟩
/-- `joA`.  v3/planetary/planetary.go:179. -/
noncomputable def joA : Ca := ⟨2451870.628, 398.884046, 318.4681, 33.140229⟩
/-- `soA`.  v3/planetary/planetary.go:181. -/
noncomputable def soA : Ca := ⟨2451870.17, 378.091904, 318.0172, 12.647487⟩
/-- `scA`.  v3/planetary/planetary.go:182. -/
noncomputable def scA : Ca := ⟨2451681.124, 378.091904, 131.6934, 12.647487⟩
/-- `uoA`.  v3/planetary/planetary.go:183. -/
noncomputable def uoA : Ca := ⟨2451764.317, 369.656035, 213.6884, 4.333093⟩
/-- `noA`.  v3/planetary/planetary.go:185. -/
noncomputable def noA : Ca := ⟨2451753.122, 367.486703, 202.6544, 2.194998⟩

/-- `jaa`.  v3/planetary/planetary.go:194-196. -/
noncomputable def jaa : List (ℝ × ℝ) := [(82.74, 40.76)]
/-- `saa`.  v3/planetary/planetary.go:198-203. -/
noncomputable def saa : List (ℝ × ℝ) := [(82.74, 40.76), (29.86, 1181.36), (14.13, 590.68), (220.02, 1262.87)]
/-- `uaa`.  v3/planetary/planetary.go:205-208. -/
noncomputable def uaa : List (ℝ × ℝ) := [(207.83, 8.51), (108.84, 419.96)]
/-- `naa`.  v3/planetary/planetary.go:210-213. -/
noncomputable def naa : List (ℝ × ℝ) := [(207.83, 8.51), (276.74, 209.98)]

/-- `micB`.  v3/planetary/planetary.go:218-230. -/
noncomputable def micB : List (List ℝ) :=
  [[0.0545, 0.0002],
   [-6.2008, 0.0074, 0.00003],
   [-3.275, -0.0197, 0.00001],
   [0.4737, -0.0052, -0.00001],
   [0.8111, 0.0033, -0.00002],
   [0.0037, 0.0018],
   [-0.1768, 0, 0.00001],
   [-0.0211, -0.0004],
   [0.0326, -0.0003],
   [0.0083, 0.0001],
   [-0.004, 0.0001]]

/-- `mscB`.  v3/planetary/planetary.go:233-245. -/
noncomputable def mscB : List (List ℝ) :=
  [[-0.0548, -0.0002],
   [7.3894, -0.01, -0.00003],
   [3.22, 0.0197, -0.00001],
   [0.8383, -0.0064, -0.00001],
   [0.9666, 0.0039, -0.00003],
   [0.077, -0.0026],
   [0.2758, 0.0002, -0.00002],
   [-0.0128, -0.0008],
   [0.0734, -0.0004, -0.00001],
   [-0.0122, -0.0002],
   [0.0173, -0.0002]]

/-- `vicB`.  v3/planetary/planetary.go:248-256. -/
noncomputable def vicB : List (List ℝ) :=
  [[-0.0096, 0.0002, -0.00001],
   [2.0009, -0.0033, -0.00001],
   [0.598, -0.0104, 0.00001],
   [0.0967, -0.0018, -0.00003],
   [0.0913, 0.0009, -0.00002],
   [0.0046, -0.0002],
   [0.0079, 0.0001]]

/-- `moB`.  v3/planetary/planetary.go:259-271. -/
noncomputable def moB : List (List ℝ) :=
  [[-0.3088, 0, 0.00002],
   [-17.6965, 0.0363, 0.00005],
   [18.3131, 0.0467, -0.00006],
   [-0.2162, -0.0198, -0.00001],
   [-4.5028, -0.0019, 0.00007],
   [0.8987, 0.0058, -0.00002],
   [0.7666, -0.005, -0.00003],
   [-0.3636, -0.0001, 0.00002],
   [0.0402, 0.0032],
   [0.0737, -0.0008],
   [-0.098, -0.0011]]

/-- `joB`.  v3/planetary/planetary.go:274-284. -/
noncomputable def joB : List (List ℝ) :=
  [[-0.1029, 0, -0.00009],
   [-1.9658, -0.0056, 0.00007],
   [6.1537, 0.021, -0.00006],
   [-0.2081, -0.0013],
   [-0.1116, -0.001],
   [0.0074, 0.0001],
   [-0.0097, -0.0001],
   [0, 0.0144, -0.00008],
   [0.3642, -0.0019, -0.00029]]

/-- `soB`.  v3/planetary/planetary.go:287-303. -/
noncomputable def soB : List (List ℝ) :=
  [[-0.0209, 0.0006, 0.00023],
   [4.5795, -0.0312, -0.00017],
   [1.1462, -0.0351, 0.00011],
   [0.0985, -0.0015],
   [0.0733, -0.0031, 0.00001],
   [0.0025, -0.0001],
   [0.005, -0.0002],
   [0, -0.0337, 0.00018],
   [-0.851, 0.0044, 0.00068],
   [0, -0.0064, 0.00004],
   [0.2397, -0.0012, -0.00008],
   [0, -0.001],
   [0.1245, 0.0006],
   [0, 0.0024, -0.00003],
   [0.0477, -0.0005, -0.00006]]

/-- `scB`.  v3/planetary/planetary.go:306-322. -/
noncomputable def scB : List (List ℝ) :=
  [[0.0172, -0.0006, 0.00023],
   [-8.5885, 0.0411, 0.00020],
   [-1.147, 0.0352, -0.00011],
   [0.3331, -0.0034, -0.00001],
   [0.1145, -0.0045, 0.00002],
   [-0.0169, 0.0002],
   [-0.0109, 0.0004],
   [0, -0.0337, 0.00018],
   [-0.851, 0.0044, 0.00068],
   [0, -0.0064, 0.00004],
   [0.2397, -0.0012, -0.00008],
   [0, -0.001],
   [0.1245, 0.0006],
   [0, 0.0024, -0.00003],
   [0.0477, -0.0005, -0.00006]]

/-- `uoB`.  v3/planetary/planetary.go:325-337. -/
noncomputable def uoB : List (List ℝ) :=
  [[0.0844, -0.0006],
   [-0.1048, 0.0246],
   [-5.1221, 0.0104, 0.00003],
   [-0.1428, 0.0005],
   [-0.0148, -0.0013],
   [0],
   [0.0055],
   [0],
   [0.885],
   [0],
   [0.2153]]

/-- `noB`.  v3/planetary/planetary.go:340-350. -/
noncomputable def noB : List (List ℝ) :=
  [[-0.014, 0, 0.00001],
   [-1.3486, 0.001, 0.00001],
   [0.8597, 0.0037],
   [-0.0082, -0.0002, 0.00001],
   [0.0037, -0.0003],
   [0],
   [-0.5964],
   [0],
   [0.0728]]

/-- `met`.  v3/planetary/planetary.go:355-367. -/
noncomputable def met : List (List ℝ) :=
  [[-21.6106, 0.0002],
   [-1.9803, -0.006, 0.00001],
   [1.4151, -0.0072, -0.00001],
   [0.5528, -0.0005, -0.00001],
   [0.2905, 0.0034, 0.00001],
   [-0.1121, -0.0001, 0.00001],
   [-0.0098, -0.0015],
   [0.0192],
   [0.0111, 0.0004],
   [-0.0061],
   [-0.0032, -0.0001]]

/-- `mee`.  v3/planetary/planetary.go:370-382. -/
noncomputable def mee : List (List ℝ) :=
  [[22.4697],
   [-4.2666, 0.0054, 0.00002],
   [-1.8537, -0.0137],
   [0.3598, 0.0008, -0.00001],
   [-0.068, 0.0026],
   [-0.0524, -0.0003],
   [0.0052, -0.0006],
   [0.0107, 0.0001],
   [-0.0013, 0.0001],
   [-0.0021],
   [0.0003]]

/-- `mwt`.  v3/planetary/planetary.go:385-397. -/
noncomputable def mwt : List (List ℝ) :=
  [[21.6249, -0.0002],
   [0.1306, 0.0065],
   [-2.7661, -0.0011, 0.00001],
   [0.2438, -0.0024, -0.00001],
   [0.5767, 0.0023],
   [0.1041],
   [-0.0184, 0.0007],
   [-0.0051, -0.0001],
   [0.0048, 0.0001],
   [0.0026],
   [0.0037]]

/-- `mwe`.  v3/planetary/planetary.go:400-412. -/
noncomputable def mwe : List (List ℝ) :=
  [[22.4143, -0.0001],
   [4.3651, -0.0048, -0.00002],
   [2.3787, 0.0121, -0.00001],
   [0.2674, 0.0022],
   [-0.3873, 0.0008, 0.00001],
   [-0.0369, -0.0001],
   [0.0017, -0.0001],
   [0.0059],
   [0.0061, 0.0001],
   [0.0007],
   [-0.0011]]

/-- `ms2`.  v3/planetary/planetary.go:417-429. -/
noncomputable def ms2 : List (List ℝ) :=
  [[36.7191, 0.0016, 0.00003],
   [-12.6163, 0.0417, -0.00001],
   [20.1218, 0.0379, -0.00006],
   [-1.636, -0.019],
   [-3.9657, 0.0045, 0.00007],
   [1.1546, 0.0029, -0.00003],
   [0.2888, -0.0073, -0.00002],
   [-0.3128, 0.0017, 0.00002],
   [0.2513, 0.0026, -0.00002],
   [-0.0021, -0.0016],
   [-0.1497, -0.0006]]

/-- `el`: the row argument `a` is not used, `micA` is.  v3/planetary/planetary.go:140-143. -/
noncomputable def el (y : ℝ) (_a : Ca) (t e : List (List ℝ)) : Option (ℝ × ℝ) :=
  let (J, M, T) := mean y micA
  match sum T M t, sum T M e with
  | some s, some d => some (J + s, d * π / 180)
  | _, _ => none

/-- `MercuryInfConj`.  v3/planetary/planetary.go:51-53. -/
noncomputable def MercuryInfConj (y : ℝ) : Option ℝ := ms y micA micB
/-- `MercurySupConj`.  v3/planetary/planetary.go:59-61. -/
noncomputable def MercurySupConj (y : ℝ) : Option ℝ := ms y mscA mscB
/-- `VenusInfConj`.  v3/planetary/planetary.go:67-69. -/
noncomputable def VenusInfConj (y : ℝ) : Option ℝ := ms y vicA vicB
/-- `MarsOpp`.  v3/planetary/planetary.go:75-77. -/
noncomputable def MarsOpp (y : ℝ) : Option ℝ := ms y moA moB
/-- `JupiterOpp`.  v3/planetary/planetary.go:103-105. -/
noncomputable def JupiterOpp (y : ℝ) : Option ℝ := msa y joA joB jaa
/-- `SaturnOpp`.  v3/planetary/planetary.go:111-113. -/
noncomputable def SaturnOpp (y : ℝ) : Option ℝ := msa y soA soB saa
/-- `SaturnConj`.  v3/planetary/planetary.go:119-121. -/
noncomputable def SaturnConj (y : ℝ) : Option ℝ := msa y scA scB saa
/-- `UranusOpp`.  v3/planetary/planetary.go:127-129. -/
noncomputable def UranusOpp (y : ℝ) : Option ℝ := msa y uoA uoB uaa
/-- `NeptuneOpp`.  v3/planetary/planetary.go:135-137. -/
noncomputable def NeptuneOpp (y : ℝ) : Option ℝ := msa y noA noB naa
/-- `MercuryEastElongation`.  v3/planetary/planetary.go:149-151. -/
noncomputable def MercuryEastElongation (y : ℝ) : Option (ℝ × ℝ) := el y micA met mee
/-- `MercuryWestElongation`.  v3/planetary/planetary.go:157-159. -/
noncomputable def MercuryWestElongation (y : ℝ) : Option (ℝ × ℝ) := el y micA mwt mwe
/-- `MarsStation2`.  v3/planetary/planetary.go:161-164. -/
noncomputable def MarsStation2 (y : ℝ) : Option ℝ := ms y moA ms2

end Verif.Model.Planetary

namespace Verif.Model.Moonmaxdec

open Real

/-- Type `mc`; `tc` and `dc` are arrays of 44 and 37 numbers.  v3/moonmaxdec/moonmaxdec.go:132-136. -/
structure Mc where
  D : ℝ
  M : ℝ
  M' : ℝ
  F : ℝ
  JDE : ℝ
  s : ℝ
  tc : List ℝ
  dc : List ℝ

/-- `nc`.  v3/moonmaxdec/moonmaxdec.go:139-231. -/
noncomputable def nc : Mc where
  D := 152.2029 * deg
  M := 14.8591 * deg
  M' := 4.6881 * deg
  F := 325.8867 * deg
  JDE := 2451562.5897
  s := 1
  tc :=
    [0.8975, -0.4726, -0.1030, -0.0976, -0.0462, -0.0461, -0.0438, 0.0162, -0.0157, 0.0145, 0.0136, -0.0095, -0.0091, -0.0089,
     0.0075, -0.0068, 0.0061, -0.0047, -0.0043, -0.004, -0.0037, 0.0031, 0.0030, -0.0029, -0.0029, -0.0027, 0.0024, -0.0021,
     0.0019, 0.0018, 0.0018, 0.0017, 0.0017, -0.0014, 0.0013, 0.0013, 0.0012, 0.0011, -0.0011, 0.001, 0.001, -0.0009, 0.0007,
     -0.0007]
  dc :=
    [5.1093 * deg, 0.2658 * deg, 0.1448 * deg, -0.0322 * deg, 0.0133 * deg, 0.0125 * deg, -0.0124 * deg, -0.0101 * deg,
     0.0097 * deg, -0.0087 * deg, 0.0074 * deg, 0.0067 * deg, 0.0063 * deg, 0.0060 * deg, -0.0057 * deg, -0.0056 * deg,
     0.0052 * deg, 0.0041 * deg, -0.004 * deg, 0.0038 * deg, -0.0034 * deg, -0.0029 * deg, 0.0029 * deg, -0.0028 * deg,
     -0.0028 * deg, -0.0023 * deg, -0.0021 * deg, 0.0019 * deg, 0.0018 * deg, 0.0017 * deg, 0.0015 * deg, 0.0014 * deg,
     -0.0012 * deg, -0.0012 * deg, -0.001 * deg, -0.001 * deg, 0.0006 * deg]

/-- `sc`.  v3/moonmaxdec/moonmaxdec.go:234-326. -/
noncomputable def sc : Mc where
  D := 345.6676 * deg
  M := 1.3951 * deg
  M' := 186.21 * deg
  F := 145.1633 * deg
  JDE := 2451548.9289
  s := -1
  tc :=
    [-0.8975, -0.4726, -0.1030, -0.0976, 0.0541, 0.0516, -0.0438, 0.0112, 0.0157, 0.0023, -0.0136, 0.011, 0.0091, 0.0089, 0.0075,
     -0.003, -0.0061, -0.0047, -0.0043, 0.004, -0.0037, -0.0031, 0.0030, 0.0029, -0.0029, -0.0027, 0.0024, -0.0021, -0.0019,
     -0.0006, -0.0018, -0.0017, 0.0017, 0.0014, -0.0013, -0.0013, 0.0012, 0.0011, 0.0011, 0.001, 0.001, -0.0009, -0.0007, -0.0007]
  dc :=
    [-5.1093 * deg, 0.2658 * deg, -0.1448 * deg, 0.0322 * deg, 0.0133 * deg, 0.0125 * deg, -0.0015 * deg, 0.0101 * deg,
     -0.0097 * deg, 0.0087 * deg, 0.0074 * deg, 0.0067 * deg, -0.0063 * deg, -0.0060 * deg, 0.0057 * deg, -0.0056 * deg,
     -0.0052 * deg, -0.0041 * deg, -0.004 * deg, -0.0038 * deg, 0.0034 * deg, -0.0029 * deg, 0.0029 * deg, 0.0028 * deg,
     -0.0028 * deg, 0.0023 * deg, 0.0021 * deg, 0.0019 * deg, 0.0018 * deg, -0.0017 * deg, 0.0015 * deg, 0.0014 * deg,
     0.0012 * deg, -0.0012 * deg, 0.001 * deg, -0.001 * deg, 0.0037 * deg]

/-- The integer k of `max`.  v3/moonmaxdec/moonmaxdec.go:37-38. -/
noncomputable def maxK (y : ℝ) : ℤ := ⌊(y - 2000.03) * 13.3686 + 0.5⌋

/-- `ck`.  v3/moonmaxdec/moonmaxdec.go:39. -/
noncomputable def ck : ℝ := 1 / 1336.86

/-- The periodic terms of the time in `max`, in the order of the code.  v3/moonmaxdec/moonmaxdec.go:47-90. -/
noncomputable def timeTerms (c : Mc) (D M M' F E : ℝ) : List ℝ :=
    [c.tc.getD 0 0 * cos (F), c.tc.getD 1 0 * sin (M'), c.tc.getD 2 0 * sin (2 * F), c.tc.getD 3 0 * sin (2 * D - M'),
     c.tc.getD 4 0 * cos (M' - F), c.tc.getD 5 0 * cos (M' + F), c.tc.getD 6 0 * sin (2 * D), c.tc.getD 7 0 * sin (M) * E,
     c.tc.getD 8 0 * cos (3 * F), c.tc.getD 9 0 * sin (M' + 2 * F), c.tc.getD 10 0 * cos (2 * D - F),
     c.tc.getD 11 0 * cos (2 * D - M' - F), c.tc.getD 12 0 * cos (2 * D - M' + F), c.tc.getD 13 0 * cos (2 * D + F),
     c.tc.getD 14 0 * sin (2 * M'), c.tc.getD 15 0 * sin (M' - 2 * F), c.tc.getD 16 0 * cos (2 * M' - F),
     c.tc.getD 17 0 * sin (M' + 3 * F), c.tc.getD 18 0 * sin (2 * D - M - M') * E, c.tc.getD 19 0 * cos (M' - 2 * F),
     c.tc.getD 20 0 * sin (2 * (D - M')), c.tc.getD 21 0 * sin (F), c.tc.getD 22 0 * sin (2 * D + M'), c.tc.getD 23 0 * cos (M' + 2 * F),
     c.tc.getD 24 0 * sin (2 * D - M) * E, c.tc.getD 25 0 * sin (M' + F), c.tc.getD 26 0 * sin (M - M') * E,
     c.tc.getD 27 0 * sin (M' - 3 * F), c.tc.getD 28 0 * sin (2 * M' + F), c.tc.getD 29 0 * cos (2 * (D - M') - F),
     c.tc.getD 30 0 * sin (3 * F), c.tc.getD 31 0 * cos (M' + 3 * F), c.tc.getD 32 0 * cos (2 * M'), c.tc.getD 33 0 * cos (2 * D - M'),
     c.tc.getD 34 0 * cos (2 * D + M' + F), c.tc.getD 35 0 * cos (M'), c.tc.getD 36 0 * sin (3 * M' + F),
     c.tc.getD 37 0 * sin (2 * D - M' + F), c.tc.getD 38 0 * cos (2 * (D - M')), c.tc.getD 39 0 * cos (D + F),
     c.tc.getD 40 0 * sin (M + M') * E, c.tc.getD 41 0 * sin (2 * (D - F)), c.tc.getD 42 0 * cos (2 * M' + F),
     c.tc.getD 43 0 * cos (3 * M' + F)]

/-- The periodic terms of the declination in `max`, in the order of the code.  v3/moonmaxdec/moonmaxdec.go:92-128. -/
noncomputable def decTerms (c : Mc) (D M M' F E : ℝ) : List ℝ :=
    [c.dc.getD 0 0 * sin (F), c.dc.getD 1 0 * cos (2 * F), c.dc.getD 2 0 * sin (2 * D - F), c.dc.getD 3 0 * sin (3 * F),
     c.dc.getD 4 0 * cos (2 * (D - F)), c.dc.getD 5 0 * cos (2 * D), c.dc.getD 6 0 * sin (M' - F), c.dc.getD 7 0 * sin (M' + 2 * F),
     c.dc.getD 8 0 * cos (F), c.dc.getD 9 0 * sin (2 * D + M - F) * E, c.dc.getD 10 0 * sin (M' + 3 * F), c.dc.getD 11 0 * sin (D + F),
     c.dc.getD 12 0 * sin (M' - 2 * F), c.dc.getD 13 0 * sin (2 * D - M - F) * E, c.dc.getD 14 0 * sin (2 * D - M' - F),
     c.dc.getD 15 0 * cos (M' + F), c.dc.getD 16 0 * cos (M' + 2 * F), c.dc.getD 17 0 * cos (2 * M' + F),
     c.dc.getD 18 0 * cos (M' - 3 * F), c.dc.getD 19 0 * cos (2 * M' - F), c.dc.getD 20 0 * cos (M' - 2 * F),
     c.dc.getD 21 0 * sin (2 * M'), c.dc.getD 22 0 * sin (3 * M' + F), c.dc.getD 23 0 * cos (2 * D + M - F) * E,
     c.dc.getD 24 0 * cos (M' - F), c.dc.getD 25 0 * cos (3 * F), c.dc.getD 26 0 * sin (2 * D + F), c.dc.getD 27 0 * cos (M' + 3 * F),
     c.dc.getD 28 0 * cos (D + F), c.dc.getD 29 0 * sin (2 * M' - F), c.dc.getD 30 0 * cos (3 * M' + F),
     c.dc.getD 31 0 * cos (2 * (D + M') + F), c.dc.getD 32 0 * sin (2 * (D - M') - F), c.dc.getD 33 0 * cos (2 * M'),
     c.dc.getD 34 0 * cos (M'), c.dc.getD 35 0 * sin (2 * F), c.dc.getD 36 0 * sin (M' + F)]

/-- `max` for a given k: the sums of the code run over the lists.  v3/moonmaxdec/moonmaxdec.go:40-129. -/
noncomputable def maxAt (k : ℤ) (c : Mc) : ℝ × ℝ :=
  let p := deg
  let T := (k : ℝ) * ck
  let D := hornerR T [c.D, 333.0705546 * p / ck, -0.0004214 * p, 0.00000011 * p]
  let M := hornerR T [c.M, 26.9281592 * p / ck, -0.0000355 * p, -0.0000001 * p]
  let M' := hornerR T [c.M', 356.9562794 * p / ck, 0.0103066 * p, 0.00001251 * p]
  let F := hornerR T [c.F, 1.4467807 * p / ck, -0.002069 * p, -0.00000215 * p]
  let E := hornerR T [1, -0.002516, -0.0000074]
  let jde := hornerR T [c.JDE, 27.321582247 / ck, 0.000119804, -0.000000141] + (timeTerms c D M M' F E).sum
  let δ := 23.6961 * p - 0.013004 * p * T + (decTerms c D M M' F E).sum
  (jde, δ * c.s)

/-- `max`.  v3/moonmaxdec/moonmaxdec.go:36-130. -/
noncomputable def max (y : ℝ) (c : Mc) : ℝ × ℝ := maxAt (maxK y) c

/-- `North`.  v3/moonmaxdec/moonmaxdec.go:20-22. -/
noncomputable def North (y : ℝ) : ℝ × ℝ := max y nc

/-- `South`.  v3/moonmaxdec/moonmaxdec.go:30-32. -/
noncomputable def South (y : ℝ) : ℝ × ℝ := max y sc

end Verif.Model.Moonmaxdec
