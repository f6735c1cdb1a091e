import Verif.Model.Elliptic
import Verif.Model.Rise
/-
Model of package pluto.  Exact real arithmetic.  The table is written by a script from the source.
-/
namespace Verif.Model.Pluto

open Real Verif.Go Verif.Model

/-- A row of `t37`: multipliers of J, S, P and the coefficients of sine and cosine for longitude, latitude (degrees) and radius.  The conversion of the
coefficients from degrees to radians in `init` is done in `Heliocentric`.  v3/pluto/pluto.go:55-70. -/
structure Row where
  i : ℚ
  j : ℚ
  k : ℚ
  lA : ℚ
  lB : ℚ
  bA : ℚ
  bB : ℚ
  rA : ℚ
  rB : ℚ

/-- `t37`.  v3/pluto/pluto.go:71-113. -/
def t37 : List Row := [
  ⟨0, 0, 1, -19.799805, 19.850055, -5.452852, -14.974862, 6.6865439, 6.8951812⟩,
  ⟨0, 0, 2, 0.897144, -4.954829, 3.527812, 1.67279, -1.1827535, -0.0332538⟩,
  ⟨0, 0, 3, 0.611149, 1.211027, -1.050748, 0.327647, 0.1593179, -0.143889⟩,
  ⟨0, 0, 4, -0.341243, -0.189585, 0.17869, -0.292153, -0.0018444, 0.048322⟩,
  ⟨0, 0, 5, 0.129287, -0.034992, 0.01865, 0.10034, -0.0065977, -0.0085431⟩,
  ⟨0, 0, 6, -0.038164, 0.030893, -0.030697, -0.025823, 0.0031174, -0.0006032⟩,
  ⟨0, 1, -1, 0.020442, -0.009987, 0.004878, 0.011248, -0.0005794, 0.0022161⟩,
  ⟨0, 1, 0, -0.004063, -0.005071, 0.000226, -0.000064, 0.0004601, 0.0004032⟩,
  ⟨0, 1, 1, -0.006016, -0.003336, 0.00203, -0.000836, -0.0001729, 0.0000234⟩,
  ⟨0, 1, 2, -0.003956, 0.003039, 0.000069, -0.000604, -0.0000415, 0.0000702⟩,
  ⟨0, 1, 3, -0.000667, 0.003572, -0.000247, -0.000567, 0.0000239, 0.0000723⟩,
  ⟨0, 2, -2, 0.001276, 0.000501, -0.000057, 0.000001, 0.0000067, -0.0000067⟩,
  ⟨0, 2, -1, 0.001152, -0.000917, -0.000122, 0.000175, 0.0001034, -0.0000451⟩,
  ⟨0, 2, 0, 0.00063, -0.001277, -0.000049, -0.000164, -0.0000129, 0.0000504⟩,
  ⟨1, -1, 0, 0.002571, -0.000459, -0.000197, 0.000199, 0.000048, -0.0000231⟩,
  ⟨1, -1, 1, 0.000899, -0.001449, -0.000025, 0.000217, 0.0000002, -0.0000441⟩,
  ⟨1, 0, -3, -0.001016, 0.001043, 0.000589, -0.000248, -0.0003359, 0.0000265⟩,
  ⟨1, 0, -2, -0.002343, -0.001012, -0.000269, 0.000711, 0.0007856, -0.0007832⟩,
  ⟨1, 0, -1, 0.007042, 0.000788, 0.000185, 0.000193, 0.0000036, 0.0045763⟩,
  ⟨1, 0, 0, 0.001199, -0.000338, 0.000315, 0.000807, 0.0008663, 0.0008547⟩,
  ⟨1, 0, 1, 0.000418, -0.000067, -0.00013, -0.000043, -0.0000809, -0.0000769⟩,
  ⟨1, 0, 2, 0.00012, -0.000274, 0.000005, 0.000003, 0.0000263, -0.0000144⟩,
  ⟨1, 0, 3, -0.00006, -0.000159, 0.000002, 0.000017, -0.0000126, 0.0000032⟩,
  ⟨1, 0, 4, -0.000082, -0.000029, 0.000002, 0.000005, -0.0000035, -0.0000016⟩,
  ⟨1, 1, -3, -0.000036, -0.000029, 0.000002, 0.000003, -0.0000019, -0.0000004⟩,
  ⟨1, 1, -2, -0.00004, 0.000007, 0.000003, 0.000001, -0.0000015, 0.0000008⟩,
  ⟨1, 1, -1, -0.000014, 0.000022, 0.000002, -0.000001, -0.0000004, 0.0000012⟩,
  ⟨1, 1, 0, 0.000004, 0.000013, 0.000001, -0.000001, 0.0000005, 0.0000006⟩,
  ⟨1, 1, 1, 0.000005, 0.000002, 0, -0.000001, 0.0000003, 0.0000001⟩,
  ⟨1, 1, 3, -0.000001, 0, 0, 0, 0.0000006, -0.0000002⟩,
  ⟨2, 0, -6, 0.000002, 0, 0, -0.000002, 0.0000002, 0.0000002⟩,
  ⟨2, 0, -5, -0.000004, 0.000005, 0.000002, 0.000002, -0.0000002, -0.0000002⟩,
  ⟨2, 0, -4, 0.000004, -0.000007, -0.000007, 0, 0.0000014, 0.0000013⟩,
  ⟨2, 0, -3, 0.000014, 0.000024, 0.00001, -0.000008, -0.0000063, 0.0000013⟩,
  ⟨2, 0, -2, -0.000049, -0.000034, -0.000003, 0.00002, 0.0000136, -0.0000236⟩,
  ⟨2, 0, -1, 0.000163, -0.000048, 0.000006, 0.000005, 0.0000273, 0.0001065⟩,
  ⟨2, 0, 0, 0.000009, -0.000024, 0.000014, 0.000017, 0.0000251, 0.0000149⟩,
  ⟨2, 0, 1, -0.000004, 0.000001, -0.000002, 0, -0.0000025, -0.0000009⟩,
  ⟨2, 0, 2, -0.000003, 0.000001, 0, 0, 0.0000009, -0.0000002⟩,
  ⟨2, 0, 3, 0.000001, 0.000003, 0, 0, -0.0000008, 0.0000007⟩,
  ⟨3, 0, -2, -0.000003, -0.000001, 0, 0.000001, 0.0000002, -0.000001⟩,
  ⟨3, 0, -1, 0.000005, -0.000003, 0, 0, 0.0000019, 0.0000035⟩,
  ⟨3, 0, 0, 0, 0, 0.000001, 0, 0.000001, 0.0000003⟩]

/-- J, S, P, in degrees.  v3/pluto/pluto.go:22-24. -/
noncomputable def J (T : ℝ) : ℝ := 34.35 + 3034.9057 * T
noncomputable def S (T : ℝ) : ℝ := 50.08 + 1222.1138 * T
noncomputable def P (T : ℝ) : ℝ := 238.96 + 144.96 * T

/-- The argument of a row.  v3/pluto/pluto.go:27. -/
noncomputable def Row.arg (t : Row) (T : ℝ) : ℝ := J T * deg * t.i + S T * deg * t.j + P T * deg * t.k

/-- A sum over the rows.  v3/pluto/pluto.go:25-31. -/
noncomputable def total (A B : Row → ℚ) (l : List Row) (T : ℝ) : ℝ := (l.map fun t => A t * sin (t.arg T) + B t * cos (t.arg T)).sum

/-- `Heliocentric`.  v3/pluto/pluto.go:20-36. -/
noncomputable def Heliocentric (jde : ℝ) : ℝ × ℝ × ℝ :=
  let T := J2000Century jde
  (total Row.lA Row.lB t37 T * deg + (238.958116 + 144.96 * T) * deg, total Row.bA Row.bB t37 T * deg - 3.908239 * deg,
    total Row.rA Row.rB t37 T + 40.7241346)

/-- The closure `f`: equatorial rectangular coordinates.  v3/pluto/pluto.go:41-50. -/
noncomputable def xyz (jde : ℝ) : ℝ × ℝ × ℝ :=
  let (l, b, r) := Heliocentric jde
  (r * cos l * cos b, r * (sin l * cos b * Elliptic.COblJ2000 - sin b * Elliptic.SOblJ2000),
    r * (sin l * cos b * Elliptic.SOblJ2000 + sin b * Elliptic.COblJ2000))

/-- `Astrometric`; `sun` gives the rectangular coordinates of the Sun (solarxyz.PositionJ2000).  v3/pluto/pluto.go:39-54. -/
noncomputable def Astrometric (jde : ℝ) (sun : ℝ → ℝ × ℝ × ℝ) : ℝ × ℝ :=
  let q := Elliptic.AstrometricJ2000 xyz sun jde
  (q.1, q.2.1)

end Verif.Model.Pluto
