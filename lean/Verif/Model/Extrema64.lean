import Verif.Go.FloatExpr
import Verif.Model.Planetary
import Verif.Model.Perihelion
/-
Packages moonmaxdec (v3/moonmaxdec/moonmaxdec.go) and perihelion (v3/perihelion/perihelion.go) in double precision.  The expressions are those of the code,
operation by operation and in the order of the code; the tables and sums of moonmaxdec are written by a script from the source.  Constant expressions are
exact, as the language has them, and rounded once.
-/
namespace Verif.Model.Moonmaxdec64

open Verif.Go.F64 Verif.Go.F64.Ex

/-- `ck`, the inverse.  v3/moonmaxdec/moonmaxdec.go:39. -/
def T : Ex := v 0 * q 50 66843

/-- The argument of math.Floor; variable 0 is the year.  v3/moonmaxdec/moonmaxdec.go:37-38. -/
def arg : Ex := (v 0 - q 200003 100) * q 133686 10000 + q 5 10

/-- The terms of `mc` which depend on T; the others are lists of constants.  v3/moonmaxdec/moonmaxdec.go:132-136. -/
structure Mc where
  D : Ex
  M : Ex
  M' : Ex
  F : Ex
  jde : Ex
  tc : List Ex
  dc : List Ex

/-- Indexing. -/
def co (l : List Ex) (i : ℕ) : Ex := l.getD i (q 0 1)

/-- `nc`, with the polynomials of `max`.  v3/moonmaxdec/moonmaxdec.go:139-231, 41-44, 46. -/
def nc : Mc where
  D := horner T [p 507343 600000, p 12368575045071 5000000000, p (-2107) 900000000, p 11 18000000000]
  M := horner T [p 148591 1800000, p 249994297973 1250000000, p (-71) 360000000, p (-1) 1800000000]
  M' := horner T [p 5209 200000, p 13255571435519 5000000000, p 51533 900000000, p 139 2000000000]
  F := horner T [p 1086289 600000, p 107452402589 10000000000, p (-2069) 180000000, p (-43) 3600000000]
  jde := horner T [q 24515625897 10000, q 1826256522136221 50000000000, q 29951 250000000, q (-141) 1000000000]
  tc := [q 359 400, q (-2363) 5000, q (-103) 1000, q (-61) 625, q (-231) 5000, q (-461) 10000, q (-219) 5000, q 81 5000, q (-157) 10000, q 29 2000, q 17 1250, q (-19) 2000, q (-91) 10000, q (-89) 10000, q 3 400, q (-17) 2500, q 61 10000, q (-47) 10000, q (-43) 10000, q (-1) 250, q (-37) 10000, q 31 10000, q 3 1000, q (-29) 10000, q (-29) 10000, q (-27) 10000, q 3 1250, q (-21) 10000, q 19 10000, q 9 5000, q 9 5000, q 17 10000, q 17 10000, q (-7) 5000, q 13 10000, q 13 10000, q 3 2500, q 11 10000, q (-11) 10000, q 1 1000, q 1 1000, q (-9) 10000, q 7 10000, q (-7) 10000]
  dc := [p 5677 200000, p 443 300000, p 181 225000, p (-161) 900000, p 133 1800000, p 1 14400, p (-31) 450000, p (-101) 1800000, p 97 1800000, p (-29) 600000, p 37 900000, p 67 1800000, p 7 200000, p 1 30000, p (-19) 600000, p (-7) 225000, p 13 450000, p 41 1800000, p (-1) 45000, p 19 900000, p (-17) 900000, p (-29) 1800000, p 29 1800000, p (-7) 450000, p (-7) 450000, p (-23) 1800000, p (-7) 600000, p 19 1800000, p 1 100000, p 17 1800000, p 1 120000, p 7 900000, p (-1) 150000, p (-1) 150000, p (-1) 180000, p (-1) 180000, p 1 300000]

/-- `sc`, with the polynomials of `max`.  v3/moonmaxdec/moonmaxdec.go:234-326, 41-44, 46. -/
def sc : Mc where
  D := horner T [p 864169 450000, p 12368575045071 5000000000, p (-2107) 900000000, p 11 18000000000]
  M := horner T [p 13951 1800000, p 249994297973 1250000000, p (-71) 360000000, p (-1) 1800000000]
  M' := horner T [p 2069 2000, p 13255571435519 5000000000, p 51533 900000000, p 139 2000000000]
  F := horner T [p 1451633 1800000, p 107452402589 10000000000, p (-2069) 180000000, p (-43) 3600000000]
  jde := horner T [q 24515489289 10000, q 1826256522136221 50000000000, q 29951 250000000, q (-141) 1000000000]
  tc := [q (-359) 400, q (-2363) 5000, q (-103) 1000, q (-61) 625, q 541 10000, q 129 2500, q (-219) 5000, q 7 625, q 157 10000, q 23 10000, q (-17) 1250, q 11 1000, q 91 10000, q 89 10000, q 3 400, q (-3) 1000, q (-61) 10000, q (-47) 10000, q (-43) 10000, q 1 250, q (-37) 10000, q (-31) 10000, q 3 1000, q 29 10000, q (-29) 10000, q (-27) 10000, q 3 1250, q (-21) 10000, q (-19) 10000, q (-3) 5000, q (-9) 5000, q (-17) 10000, q 17 10000, q 7 5000, q (-13) 10000, q (-13) 10000, q 3 2500, q 11 10000, q 11 10000, q 1 1000, q 1 1000, q (-9) 10000, q (-7) 10000, q (-7) 10000]
  dc := [p (-5677) 200000, p 443 300000, p (-181) 225000, p 161 900000, p 133 1800000, p 1 14400, p (-1) 120000, p 101 1800000, p (-97) 1800000, p 29 600000, p 37 900000, p 67 1800000, p (-7) 200000, p (-1) 30000, p 19 600000, p (-7) 225000, p (-13) 450000, p (-41) 1800000, p (-1) 45000, p (-19) 900000, p 17 900000, p (-29) 1800000, p 29 1800000, p 7 450000, p (-7) 450000, p 23 1800000, p 7 600000, p 19 1800000, p 1 100000, p (-17) 1800000, p 1 120000, p 7 900000, p 1 150000, p (-1) 150000, p 1 180000, p (-1) 180000, p 37 1800000]

/-- `E`.  v3/moonmaxdec/moonmaxdec.go:45. -/
def E : Ex := horner T [q 1 1, q (-2516) 1000000, q (-74) 10000000]

/-- `jde`.  v3/moonmaxdec/moonmaxdec.go:46-90. -/
def jde (c : Mc) : Ex := sumFrom c.jde
  [co c.tc 0 * cos (c.F),
   co c.tc 1 * sin (c.M'),
   co c.tc 2 * sin (q 2 1 * c.F),
   co c.tc 3 * sin (q 2 1 * c.D - c.M'),
   co c.tc 4 * cos (c.M' - c.F),
   co c.tc 5 * cos (c.M' + c.F),
   co c.tc 6 * sin (q 2 1 * c.D),
   co c.tc 7 * sin (c.M) * E,
   co c.tc 8 * cos (q 3 1 * c.F),
   co c.tc 9 * sin (c.M' + q 2 1 * c.F),
   co c.tc 10 * cos (q 2 1 * c.D - c.F),
   co c.tc 11 * cos (q 2 1 * c.D - c.M' - c.F),
   co c.tc 12 * cos (q 2 1 * c.D - c.M' + c.F),
   co c.tc 13 * cos (q 2 1 * c.D + c.F),
   co c.tc 14 * sin (q 2 1 * c.M'),
   co c.tc 15 * sin (c.M' - q 2 1 * c.F),
   co c.tc 16 * cos (q 2 1 * c.M' - c.F),
   co c.tc 17 * sin (c.M' + q 3 1 * c.F),
   co c.tc 18 * sin (q 2 1 * c.D - c.M - c.M') * E,
   co c.tc 19 * cos (c.M' - q 2 1 * c.F),
   co c.tc 20 * sin (q 2 1 * (c.D - c.M')),
   co c.tc 21 * sin (c.F),
   co c.tc 22 * sin (q 2 1 * c.D + c.M'),
   co c.tc 23 * cos (c.M' + q 2 1 * c.F),
   co c.tc 24 * sin (q 2 1 * c.D - c.M) * E,
   co c.tc 25 * sin (c.M' + c.F),
   co c.tc 26 * sin (c.M - c.M') * E,
   co c.tc 27 * sin (c.M' - q 3 1 * c.F),
   co c.tc 28 * sin (q 2 1 * c.M' + c.F),
   co c.tc 29 * cos (q 2 1 * (c.D - c.M') - c.F),
   co c.tc 30 * sin (q 3 1 * c.F),
   co c.tc 31 * cos (c.M' + q 3 1 * c.F),
   co c.tc 32 * cos (q 2 1 * c.M'),
   co c.tc 33 * cos (q 2 1 * c.D - c.M'),
   co c.tc 34 * cos (q 2 1 * c.D + c.M' + c.F),
   co c.tc 35 * cos (c.M'),
   co c.tc 36 * sin (q 3 1 * c.M' + c.F),
   co c.tc 37 * sin (q 2 1 * c.D - c.M' + c.F),
   co c.tc 38 * cos (q 2 1 * (c.D - c.M')),
   co c.tc 39 * cos (c.D + c.F),
   co c.tc 40 * sin (c.M + c.M') * E,
   co c.tc 41 * sin (q 2 1 * (c.D - c.F)),
   co c.tc 42 * cos (q 2 1 * c.M' + c.F),
   co c.tc 43 * cos (q 3 1 * c.M' + c.F)]

/-- `δ` before the sign.  v3/moonmaxdec/moonmaxdec.go:91-128. -/
def dec (c : Mc) : Ex := sumFrom (p 236961 1800000 - p 13004 180000000 * T)
  [co c.dc 0 * sin (c.F),
   co c.dc 1 * cos (q 2 1 * c.F),
   co c.dc 2 * sin (q 2 1 * c.D - c.F),
   co c.dc 3 * sin (q 3 1 * c.F),
   co c.dc 4 * cos (q 2 1 * (c.D - c.F)),
   co c.dc 5 * cos (q 2 1 * c.D),
   co c.dc 6 * sin (c.M' - c.F),
   co c.dc 7 * sin (c.M' + q 2 1 * c.F),
   co c.dc 8 * cos (c.F),
   co c.dc 9 * sin (q 2 1 * c.D + c.M - c.F) * E,
   co c.dc 10 * sin (c.M' + q 3 1 * c.F),
   co c.dc 11 * sin (c.D + c.F),
   co c.dc 12 * sin (c.M' - q 2 1 * c.F),
   co c.dc 13 * sin (q 2 1 * c.D - c.M - c.F) * E,
   co c.dc 14 * sin (q 2 1 * c.D - c.M' - c.F),
   co c.dc 15 * cos (c.M' + c.F),
   co c.dc 16 * cos (c.M' + q 2 1 * c.F),
   co c.dc 17 * cos (q 2 1 * c.M' + c.F),
   co c.dc 18 * cos (c.M' - q 3 1 * c.F),
   co c.dc 19 * cos (q 2 1 * c.M' - c.F),
   co c.dc 20 * cos (c.M' - q 2 1 * c.F),
   co c.dc 21 * sin (q 2 1 * c.M'),
   co c.dc 22 * sin (q 3 1 * c.M' + c.F),
   co c.dc 23 * cos (q 2 1 * c.D + c.M - c.F) * E,
   co c.dc 24 * cos (c.M' - c.F),
   co c.dc 25 * cos (q 3 1 * c.F),
   co c.dc 26 * sin (q 2 1 * c.D + c.F),
   co c.dc 27 * cos (c.M' + q 3 1 * c.F),
   co c.dc 28 * cos (c.D + c.F),
   co c.dc 29 * sin (q 2 1 * c.M' - c.F),
   co c.dc 30 * cos (q 3 1 * c.M' + c.F),
   co c.dc 31 * cos (q 2 1 * (c.D + c.M') + c.F),
   co c.dc 32 * sin (q 2 1 * (c.D - c.M') - c.F),
   co c.dc 33 * cos (q 2 1 * c.M'),
   co c.dc 34 * cos (c.M'),
   co c.dc 35 * sin (q 2 1 * c.F),
   co c.dc 36 * sin (c.M' + c.F)]

/-- `max`: the time and the declination; multiplying by ±1 is exact.  v3/moonmaxdec/moonmaxdec.go:36-130. -/
def max (l : Trig) (c : Mc) (s : ℝ) (y t δ : ℝ) : Prop :=
  ∃ x d, Run l (fun _ => y) arg x ∧ Run l (fun _ => (⌊x⌋ : ℝ)) (jde c) t ∧ Run l (fun _ => (⌊x⌋ : ℝ)) (dec c) d ∧ δ = fl (d * s)

end Verif.Model.Moonmaxdec64

namespace Verif.Model.Perihelion64

open Verif.Go.F64 Verif.Go.F64.Ex

/-- `ka`, in units of 10⁻⁵ and 10⁻².  v3/perihelion/perihelion.go:93-102. -/
def ka : List (ℤ × ℤ) := [(415201, 200012), (162549, 200053), (99997, 200001), (53166, 200178), (8430, 201120), (3393, 200352), (1190, 205110), (607, 204750)]

/-- `c`, in units of 10⁻¹⁰.  v3/perihelion/perihelion.go:104-113. -/
def coef : List (List ℤ) :=
  [[24515902570000000, 879693496300], [24517382330000000, 2247008188000, -327], [24515475070000000, 3652596358000, 156], [24521950260000000, 6869957857000, -1187], [24556369360000000, 43328970650000, 1367000], [24528301200000000, 107642167600000, 8270000], [24702135000000000, 306948767000000, -54100000], [24688951000000000, 601903300000000, 342900000]]

/-- `ec`, in units of 10⁻² and 10⁻⁶.  v3/perihelion/perihelion.go:115-121. -/
def ec : List (ℤ × ℤ) := [(32841, 132788585), (31613, 584903153), (34620, 450380738), (13695, 659306737), (24952, 329653368)]

/-- `ep`, in units of 10⁻³.  v3/perihelion/perihelion.go:123. -/
def ep : List ℤ := [1278, -55, -91, -56, -45]

/-- `ea`, in units of 10⁻³.  v3/perihelion/perihelion.go:124. -/
def ea : List ℤ := [-1352, 61, 62, 29, 31]

/-- The index of the tables.  v3/perihelion/perihelion.go:71-74. -/
def ix (n : ℕ) : ℕ := if n = 8 then 2 else n

/-- The argument of f; variable 0 is the year.  v3/perihelion/perihelion.go:75. -/
def arg (n : ℕ) : Ex := q (ka.getD (ix n) (0, 0)).1 100000 * (v 0 - q (ka.getD (ix n) (0, 0)).2 100)

/-- `j` of `ap`; variable 0 is k.  v3/perihelion/perihelion.go:76-86. -/
def j (n : ℕ) (a : Bool) : Ex :=
  let j := horner (v 0) ((coef.getD (ix n) []).map fun n => q n 10000000000)
  if n = 2 then
    (List.zip (if a then ea else ep) ec).foldl (fun j t => j + q t.1 1000 * sin ((q t.2.1 100 + q t.2.2 1000000 * v 0) * p 1 1 / q 180 1)) j
  else j

/-- `Perihelion`.  v3/perihelion/perihelion.go:50-56. -/
def Perihelion (l : Trig) (n : ℕ) (y out : ℝ) : Prop :=
  ∃ x, Run l (fun _ => y) (arg n + q 5 10) x ∧ Run l (fun _ => (⌊x⌋ : ℝ)) (j n false) out

/-- `Aphelion`.  v3/perihelion/perihelion.go:62-68. -/
def Aphelion (l : Trig) (n : ℕ) (y out : ℝ) : Prop :=
  ∃ x, Run l (fun _ => y) (arg n) x ∧ Run l (fun _ => fl (⌊x⌋ + 0.5)) (j n true) out

end Verif.Model.Perihelion64
