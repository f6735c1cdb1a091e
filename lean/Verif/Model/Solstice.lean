import Verif.Model.Moon
import Verif.Model.Rise
/-
Model of package solstice, low accuracy functions (exact real arithmetic).
-/
namespace Verif.Model.Solstice

open Real

/-- `mc0`.  v3/solstice/solstice.go:17-25. -/
noncomputable def mc0 : List ℝ := [1721139.29189, 365242.13740, 0.06134, 0.00111, -0.00071]
/-- `jc0`.  v3/solstice/solstice.go:17-25. -/
noncomputable def jc0 : List ℝ := [1721233.25401, 365241.72562, -0.05232, 0.00907, 0.00025]
/-- `sc0`.  v3/solstice/solstice.go:17-25. -/
noncomputable def sc0 : List ℝ := [1721325.70455, 365242.49558, -0.11677, -0.00297, 0.00074]
/-- `dc0`.  v3/solstice/solstice.go:17-25. -/
noncomputable def dc0 : List ℝ := [1721414.39987, 365242.88257, -0.00769, -0.00933, -0.00006]
/-- `mc2`.  v3/solstice/solstice.go:17-25. -/
noncomputable def mc2 : List ℝ := [2451623.80984, 365242.37404, 0.05169, -0.00411, -0.00057]
/-- `jc2`.  v3/solstice/solstice.go:17-25. -/
noncomputable def jc2 : List ℝ := [2451716.56767, 365241.62603, 0.00325, 0.00888, -0.00030]
/-- `sc2`.  v3/solstice/solstice.go:17-25. -/
noncomputable def sc2 : List ℝ := [2451810.21715, 365242.01767, -0.11575, 0.00337, 0.00078]
/-- `dc2`.  v3/solstice/solstice.go:17-25. -/
noncomputable def dc2 : List ℝ := [2451900.05952, 365242.74049, -0.06223, -0.00823, 0.00032]

/-- `terms`: a, b, c.  v3/solstice/solstice.go:32-58. -/
noncomputable def terms : List (ℝ × ℝ × ℝ) :=
  [(485, 324.96, 1934.136),
   (203, 337.23, 32964.467),
   (199, 342.08, 20.186),
   (182, 27.85, 445267.112),
   (156, 73.14, 45036.886),
   (136, 171.52, 22518.443),
   (77, 222.54, 65928.934),
   (74, 296.72, 3034.906),
   (70, 243.58, 9037.513),
   (58, 119.81, 33718.147),
   (52, 297.17, 150.678),
   (50, 21.02, 2281.226),
   (45, 247.54, 29929.562),
   (44, 325.15, 31555.956),
   (29, 60.93, 4443.417),
   (18, 155.12, 67555.328),
   (17, 288.79, 4562.452),
   (16, 198.04, 62894.029),
   (14, 199.76, 31436.921),
   (12, 95.39, 14577.848),
   (12, 287.11, 31931.756),
   (12, 320.81, 34777.259),
   (9, 227.73, 1222.114),
   (8, 15.45, 16859.074)]

/-- `eq`.  v3/solstice/solstice.go:108-119.  The sum is taken in the order of the table. -/
noncomputable def eq (y : ℤ) (c : List ℝ) : ℝ :=
  let J0 := hornerR ((y : ℝ) * 0.001) c
  let T := J2000Century J0
  let W := 35999.373 * π / 180 * T - 2.47 * π / 180
  let Δl := 1 + 0.0334 * cos W + 0.0007 * cos (2 * W)
  let S := series cos (terms.map fun t => (t.1, (t.2.1 + t.2.2 * T) * π / 180))
  J0 + 0.00001 * S / Δl

/-- `March`.  v3/solstice/solstice.go:65-70. -/
noncomputable def March (y : ℤ) : ℝ := if y < 1000 then eq y mc0 else eq (y - 2000) mc2

/-- `June`.  v3/solstice/solstice.go:77-82. -/
noncomputable def June (y : ℤ) : ℝ := if y < 1000 then eq y jc0 else eq (y - 2000) jc2

/-- `September`.  v3/solstice/solstice.go:89-94. -/
noncomputable def September (y : ℤ) : ℝ := if y < 1000 then eq y sc0 else eq (y - 2000) sc2

/-- `December`.  v3/solstice/solstice.go:101-106. -/
noncomputable def December (y : ℤ) : ℝ := if y < 1000 then eq y dc0 else eq (y - 2000) dc2

end Verif.Model.Solstice
