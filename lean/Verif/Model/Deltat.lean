import Verif.Model.Interp
import Verif.Model.Julian
import Verif.Model.Moon
import Verif.Model.Rise
/-
Models of packages deltat and planetelements.  Exact real arithmetic.
-/
namespace Verif.Model

open Verif.Go Verif.Model.Julian

namespace Deltat

/-- `tableYear1`, `tableYearN`.  v3/deltat/deltat.go:31-32. -/
noncomputable def tableYear1 : ℝ := 1620
noncomputable def tableYearN : ℝ := 2010

/-- `table10A`.  v3/deltat/deltat.go:33-57. -/
noncomputable def table10A : List ℝ := [
    121.0, 112.0, 103.0, 95.0, 88.0, 82.0, 77.0, 72.0, 68.0, 63.0, 60.0, 56.0, 53.0, 51.0,
    48.0, 46.0, 44.0, 42.0, 40.0, 38.0, 35.0, 33.0, 31.0, 29.0, 26.0, 24.0, 22.0, 20.0,
    18.0, 16.0, 14.0, 12.0, 11.0, 10.0, 9.0, 8.0, 7.0, 7.0, 7.0, 7.0, 7.0, 7.0,
    8.0, 8.0, 9.0, 9.0, 9.0, 9.0, 9.0, 10.0, 10.0, 10.0, 10.0, 10.0, 10.0, 10.0,
    10.0, 11.0, 11.0, 11.0, 11.0, 11.0, 12.0, 12.0, 12.0, 12.0, 13.0, 13.0, 13.0, 14.0,
    14.0, 14.0, 14.0, 15.0, 15.0, 15.0, 15.0, 15.0, 16.0, 16.0, 16.0, 16.0, 16.0, 16.0,
    16.0, 16.0, 15.0, 15.0, 14.0, 13.0, 13.1, 12.5, 12.2, 12.0, 12.0, 12.0, 12.0, 12.0,
    12.0, 11.9, 11.6, 11.0, 10.2, 9.2, 8.2, 7.1, 6.2, 5.6, 5.4, 5.3, 5.4, 5.6,
    5.9, 6.2, 6.5, 6.8, 7.1, 7.3, 7.5, 7.6, 7.7, 7.3, 6.2, 5.2, 2.7, 1.4,
    -1.2, -2.8, -3.8, -4.8, -5.5, -5.3, -5.6, -5.7, -5.9, -6.0, -6.3, -6.5, -6.2, -4.7,
    -2.8, -0.1, 2.6, 5.3, 7.7, 10.4, 13.3, 16.0, 18.2, 20.2, 21.1, 22.4, 23.5, 23.8,
    24.3, 24.0, 23.9, 23.9, 23.7, 24.0, 24.3, 25.3, 26.2, 27.3, 28.2, 29.1, 30.0, 30.7,
    31.4, 32.2, 33.1, 34.0, 35.0, 36.5, 38.3, 40.2, 42.2, 44.5, 46.5, 48.5, 50.5, 52.2,
    53.8, 54.9, 55.8, 56.9, 58.3, 60.0, 61.6, 63.0, 63.8, 64.3, 64.6, 64.8, 65.5, 66.1]

/-- The fractional year computed in `Interp10A`.  v3/deltat/deltat.go:64-70. -/
noncomputable def yearOf (jde : ℝ) : ℝ :=
  let (y, m, d) := JDToCalendar jde
  let l := LeapYearGregorian y
  let yl : ℝ := if l then 365 + 1 else 365
  y + (DayOfYear y m (trunc (d + 0.5)) l : ℝ) / yl

/-- `Interp10A`; `none` is a panic.  v3/deltat/deltat.go:61-76. -/
noncomputable def Interp10A (jde : ℝ) : Option ℝ :=
  let yf := yearOf jde
  match Interp.Len3ForInterpolateX yf tableYear1 tableYearN table10A with
  | .panic => none
  | .ret (.error _) => none
  | .ret (.ok d3) => some (d3.InterpolateX yf)

/-- `c2000`.  v3/deltat/deltat.go:81-83. -/
noncomputable def c2000 (y : ℝ) : ℝ := (y - 2000) * 0.01

/-- `Poly948to1600`.  v3/deltat/deltat.go:94-97. -/
noncomputable def Poly948to1600 (year : ℝ) : ℝ := hornerR (c2000 year) [102, 102, 25.3]

open Classical in
/-- `PolyAfter2000`.  v3/deltat/deltat.go:101-107. -/
noncomputable def PolyAfter2000 (year : ℝ) : ℝ :=
  let ΔT := Poly948to1600 year
  if year < 2100 then ΔT + 0.37 * (year - 2100) else ΔT

/-- `PolyBefore948`.  v3/deltat/deltat.go:87-90. -/
noncomputable def PolyBefore948 (year : ℝ) : ℝ := hornerR (c2000 year) [2177, 497, 44.1]

/-- `jc1900`.  v3/deltat/deltat.go:112-114. -/
noncomputable def jc1900 (jde : ℝ) : ℝ := (jde - 2415020) / 36525

/-- `Poly1800to1997`.  v3/deltat/deltat.go:120-125. -/
noncomputable def Poly1800to1997 (jde : ℝ) : ℝ :=
  hornerR (jc1900 jde) [-1.02, 91.02, 265.90, -839.16, -1545.20, 3603.62, 4385.98, -6993.23, -6090.04, 6298.12, 4102.86, -2137.64, -1081.51]

/-- `Poly1800to1899`.  v3/deltat/deltat.go:131-136. -/
noncomputable def Poly1800to1899 (jde : ℝ) : ℝ :=
  hornerR (jc1900 jde) [-2.50, 228.95, 5218.61, 56282.84, 324011.78, 1061660.75, 2087298.89, 2513807.78, 1818961.41, 727058.63, 123563.95]

/-- `Poly1900to1997`.  v3/deltat/deltat.go:142-147. -/
noncomputable def Poly1900to1997 (jde : ℝ) : ℝ :=
  hornerR (jc1900 jde) [-2.44, 87.24, 815.20, -2637.80, -18756.33, 124906.15, -303191.19, 372919.88, -232424.66, 58353.42]

end Deltat

namespace PlanetElements

/-- `Elements`.  v3/planetelements/planetelements.go:32-39. -/
structure Elements where
  Lon : ℝ
  Axis : ℝ
  Ecc : ℝ
  Inc : ℝ
  Node : ℝ
  Peri : ℝ

/-- `c6`.  v3/planetelements/planetelements.go:41-43. -/
structure C6 where
  L : List ℝ
  a : List ℝ
  e : List ℝ
  i : List ℝ
  Ω : List ℝ
  ϖ : List ℝ

/-- `cMean`, Mercury to Neptune.  v3/planetelements/planetelements.go:46-111. -/
noncomputable def cMean : List C6 := [
    ⟨[252.250906, 149474.0722491, 0.0003035, 0.000000018],
      [0.38709831],
      [0.20563175, 0.000020407, -0.0000000283, -0.00000000018],
      [7.004986, 0.0018215, -0.0000181, 0.000000056],
      [48.330893, 1.1861883, 0.00017542, 0.000000215],
      [77.456119, 1.5564776, 0.00029544, 0.000000009]⟩,
    ⟨[181.979801, 58519.2130302, 0.00031014, 0.000000015],
      [0.72332982],
      [0.00677192, -0.000047765, 0.0000000981, 0.00000000046],
      [3.394662, 0.0010037, -0.00000088, -0.000000007],
      [76.67992, 0.9011206, 0.00040618, -0.000000093],
      [131.563703, 1.4022288, -0.00107618, -0.000005678]⟩,
    ⟨[100.466457, 36000.7698278, 0.00030322, 0.00000002],
      [1.000001018],
      [0.01670863, -0.000042037, -0.0000001267, 0.00000000014],
      [0],
      [],
      [102.937348, 1.7195366, 0.00045688, -0.000000018]⟩,
    ⟨[355.433, 19141.6964471, 0.00031052, 0.000000016],
      [1.523679342],
      [0.09340065, 0.000090484, -0.0000000806, -0.00000000025],
      [1.849726, -0.0006011, 0.00001276, -0.000000007],
      [49.558093, 0.7720959, 0.00001557, 0.000002267],
      [336.060234, 1.8410449, 0.00013477, 0.000000536]⟩,
    ⟨[34.351519, 3036.3027748, 0.0002233, 0.000000037],
      [5.202603209, 0.0000001913],
      [0.04849793, 0.000163225, -0.0000004714, -0.00000000201],
      [1.303267, -0.0054965, 0.00000466, -0.000000002],
      [100.464407, 1.0209774, 0.00040315, 0.000000404],
      [14.331207, 1.6126352, 0.00103042, -0.000004464]⟩,
    ⟨[50.077444, 1223.5110686, 0.00051908, -0.00000003],
      [9.554909192, -0.0000021390, 0.000000004],
      [0.05554814, -0.000346641, -0.0000006436, 0.0000000034],
      [2.488879, -0.0037362, -0.00001519, 0.000000087],
      [113.665503, 0.877088, -0.00012176, -0.000002249],
      [93.057237, 1.9637613, 0.00083753, 0.000004928]⟩,
    ⟨[314.055005, 429.8640561, 0.0003039, 0.000000026],
      [19.218446062, -0.0000000372, 0.00000000098],
      [0.04638122, -0.000027293, 0.0000000789, 0.00000000024],
      [0.773197, 0.0007744, 0.00003749, -0.000000092],
      [74.005957, 0.5211278, 0.00133947, 0.000018484],
      [173.005291, 1.486379, 0.00021406, 0.000000434]⟩,
    ⟨[304.348665, 219.8833092, 0.00030882, 0.000000018],
      [30.110386869, -0.0000001663, 0.00000000069],
      [0.00945575, 0.000006033, 0, -0.00000000005],
      [1.769953, -0.0093082, -0.00000708, 0.000000027],
      [131.784057, 1.1022039, 0.00025952, -0.000000637],
      [48.120276, 1.4262957, 0.00038434, 0.00000002]⟩]


/-- `unit.AngleFromDeg`. -/
noncomputable def angleFromDeg (d : ℝ) : ℝ := d * deg

/-- `Mean`; `none` is a panic (index out of range, or `base.Horner` of an empty list).  v3/planetelements/planetelements.go:122-131. -/
noncomputable def Mean (p : ℕ) (jde : ℝ) : Option Elements := do
  let T := J2000Century jde
  let c ← cMean[p]?
  let L ← Horner T c.L
  let a ← Horner T c.a
  let e ← Horner T c.e
  let i ← Horner T c.i
  let Ω ← Horner T c.Ω
  let ϖ ← Horner T c.ϖ
  pure ⟨mod1 (angleFromDeg L), a, e, angleFromDeg i, angleFromDeg Ω, angleFromDeg ϖ⟩

/-- `Inc`.  v3/planetelements/planetelements.go:137-139. -/
noncomputable def Inc (p : ℕ) (jde : ℝ) : Option ℝ := do
  let c ← cMean[p]?
  let i ← Horner (J2000Century jde) c.i
  pure (angleFromDeg i)

/-- `Node`.  v3/planetelements/planetelements.go:145-147. -/
noncomputable def Node (p : ℕ) (jde : ℝ) : Option ℝ := do
  let c ← cMean[p]?
  let Ω ← Horner (J2000Century jde) c.Ω
  pure (angleFromDeg Ω)

end PlanetElements

end Verif.Model
