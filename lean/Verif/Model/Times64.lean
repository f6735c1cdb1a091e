import Verif.Go.FloatExpr
/-
Package solstice, the polynomials of package deltat and package sidereal in double precision.  The expressions are those of the code, operation by
operation and in the order of the code.
-/
namespace Verif.Model

open Verif.Go.F64 Verif.Go.F64.Ex

namespace Solstice64

/-- The coefficients, in units of the fifth decimal.  v3/solstice/solstice.go:17-25. -/
def mc0 : List ℤ := [172113929189, 36524213740, 6134, 111, -71]
def jc0 : List ℤ := [172123325401, 36524172562, -5232, 907, 25]
def sc0 : List ℤ := [172132570455, 36524249558, -11677, -297, 74]
def dc0 : List ℤ := [172141439987, 36524288257, -769, -933, -6]
def mc2 : List ℤ := [245162380984, 36524237404, 5169, -411, -57]
def jc2 : List ℤ := [245171656767, 36524162603, 325, 888, -30]
def sc2 : List ℤ := [245181021715, 36524201767, -11575, 337, 78]
def dc2 : List ℤ := [245190005952, 36524274049, -6223, -823, 32]

/-- `terms`: a, b in hundredths, c in thousandths.  v3/solstice/solstice.go:32-58. -/
def terms : List (ℤ × ℤ × ℤ) :=
  [(485, 32496, 1934136), (203, 33723, 32964467), (199, 34208, 20186), (182, 2785, 445267112), (156, 7314, 45036886), (136, 17152, 22518443),
   (77, 22254, 65928934), (74, 29672, 3034906), (70, 24358, 9037513), (58, 11981, 33718147), (52, 29717, 150678), (50, 2102, 2281226),
   (45, 24754, 29929562), (44, 32515, 31555956), (29, 6093, 4443417), (18, 15512, 67555328), (17, 28879, 4562452), (16, 19804, 62894029),
   (14, 19976, 31436921), (12, 9539, 14577848), (12, 28711, 31931756), (12, 32081, 34777259), (9, 22773, 1222114), (8, 1545, 16859074)]

/-- `J0`; variable 0 is float64(y).  v3/solstice/solstice.go:109. -/
def J0 (c : List ℤ) : Ex := horner (v 0 * q 1 1000) (c.map fun n => q n 100000)

/-- `T`.  v3/solstice/solstice.go:110, v3/base/julian.go:54-60. -/
def T (c : List ℤ) : Ex := (J0 c - q 2451545 1) / q 36525 1

/-- `W`.  v3/solstice/solstice.go:111. -/
def W (c : List ℤ) : Ex := p 35999373 180000 * T c - p 247 18000

/-- `Δλ`.  v3/solstice/solstice.go:112. -/
def Δl (c : List ℤ) : Ex := q 1 1 + q 334 10000 * cos (W c) + q 7 10000 * cos (q 2 1 * W c)

/-- `S`: the loop runs from the last term to the first.  v3/solstice/solstice.go:113-117. -/
def S (c : List ℤ) : Ex :=
  sumFrom (q 0 1) (terms.reverse.map fun t => q t.1 1 * cos ((q t.2.1 100 + q t.2.2 1000 * T c) * p 1 1 / q 180 1))

/-- `eq`: what may be returned.  v3/solstice/solstice.go:108-119. -/
def eq (l : Trig) (y : ℤ) (c : List ℤ) (out : ℝ) : Prop :=
  ∃ j s d, Run l (fun _ => (y : ℝ)) (J0 c) j ∧ Run l (fun _ => (y : ℝ)) (q 1 100000 * S c) s ∧ Run l (fun _ => (y : ℝ)) (Δl c) d ∧ out = fl (j + fl (s / d))

/-- `March`.  v3/solstice/solstice.go:65-70. -/
def March (l : Trig) (y : ℤ) (out : ℝ) : Prop := if y < 1000 then eq l y mc0 out else eq l (y - 2000) mc2 out

/-- `June`.  v3/solstice/solstice.go:77-82. -/
def June (l : Trig) (y : ℤ) (out : ℝ) : Prop := if y < 1000 then eq l y jc0 out else eq l (y - 2000) jc2 out

/-- `September`.  v3/solstice/solstice.go:89-94. -/
def September (l : Trig) (y : ℤ) (out : ℝ) : Prop := if y < 1000 then eq l y sc0 out else eq l (y - 2000) sc2 out

/-- `December`.  v3/solstice/solstice.go:101-106. -/
def December (l : Trig) (y : ℤ) (out : ℝ) : Prop := if y < 1000 then eq l y dc0 out else eq l (y - 2000) dc2 out

end Solstice64

namespace Deltat64

/-- `c2000`; variable 0 is the difference y − 2000 as computed.  v3/deltat/deltat.go:81-83. -/
def c2000 : Ex := v 0 * q 1 100

/-- `PolyBefore948`.  v3/deltat/deltat.go:87-90. -/
def before948 : Ex := horner c2000 [q 2177 1, q 497 1, q 441 10]

/-- `Poly948to1600`.  v3/deltat/deltat.go:94-97. -/
def from948 : Ex := horner c2000 [q 102 1, q 102 1, q 253 10]

/-- The term of `PolyAfter2000` before 2100; variable 0 is y − 2100 as computed.  v3/deltat/deltat.go:104. -/
def before2100 : Ex := q 37 100 * v 0

/-- `PolyAfter2000`.  v3/deltat/deltat.go:101-107. -/
def after2000 (l : Trig) (year out : ℝ) : Prop :=
  ∃ x, Run l (fun _ => fl (year - 2000)) from948 x ∧
    ((year < 2100 ∧ ∃ t, Run l (fun _ => fl (year - 2100)) before2100 t ∧ out = fl (x + t)) ∨ (¬ year < 2100 ∧ out = x))

/-- `jc1900`; variable 0 is the difference jde − base.J1900 as computed.  v3/deltat/deltat.go:112-114. -/
def jc1900 : Ex := v 0 / q 36525 1

/-- `Poly1800to1997`.  v3/deltat/deltat.go:120-125. -/
def from1800to1997 : Ex := horner jc1900 (([-102, 9102, 26590, -83916, -154520, 360362, 438598, -699323, -609004, 629812, 410286, -213764, -108151] : List ℤ).map fun n => q n 100)

/-- `Poly1800to1899`.  v3/deltat/deltat.go:131-136. -/
def from1800to1899 : Ex := horner jc1900 (([-250, 22895, 521861, 5628284, 32401178, 106166075, 208729889, 251380778, 181896141, 72705863, 12356395] : List ℤ).map fun n => q n 100)

/-- `Poly1900to1997`.  v3/deltat/deltat.go:142-147. -/
def from1900to1997 : Ex := horner jc1900 (([-244, 8724, 81520, -263780, -1875633, 12490615, -30319119, 37291988, -23242466, 5835342] : List ℤ).map fun n => q n 100)

end Deltat64

namespace Sidereal64

/-- The polynomial at 0h; variable 0 is the difference of j0 − .5 and base.J2000 as computed.  v3/sidereal/sidereal.go:23, 31, 57, v3/base/julian.go:54-60. -/
def poly : Ex := horner (v 0 / q 36525 1) [q 2411054841 100000, q 8640184812866 1000000, q 93104 1000000, q 62 10000000]

/-- `mean`: the integer part and the fraction of jd + .5 are taken without error by math.Modf; `day f` is what unit.TimeFromDay returns.
v3/sidereal/sidereal.go:21-24, 41-44, 54-58.  For positive dates. -/
def mean0UT (l : Trig) (day : ℝ → ℝ) (jd s t : ℝ) : Prop :=
  Run l (fun _ => fl (fl (⌊fl (jd + 0.5)⌋ - 0.5) - 2451545)) poly s ∧ t = day (fl (jd + 0.5) - ⌊fl (jd + 0.5)⌋)

/-- `mean`.  v3/sidereal/sidereal.go:41-44. -/
def mean (l : Trig) (day : ℝ → ℝ) (jd out : ℝ) : Prop :=
  ∃ s t, mean0UT l day jd s t ∧ (out = fl (s + fl (t * fl 1.00273790935)) ∨ out = fl (s + t * fl 1.00273790935))

end Sidereal64

end Verif.Model
