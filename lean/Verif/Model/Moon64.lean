import Verif.Go.FloatExpr
/-
Packages moonphase, apsis, moonnode and eclipse in float64.  The expressions are those of the code, operation by operation and in the order of the code;
variable 0 is the lunation (or orbit) number k, variable 1 the mean phase jm handed to `g` of package eclipse.  Constant expressions are exact, as the
language has them, and rounded once.  A sum written over many lines is `sumFrom (first term) [the others]`.
-/
namespace Verif.Model

open Verif.Go.F64 Verif.Go.F64.Ex

/-- The argument of math.Floor in `snap`, with the constants of moonphase.  v3/moonphase/moonphase.go:23-24, v3/eclipse/eclipse.go:94-95. -/
def snapPhase (h : Ex) : Ex := (v 0 - q 2000 1) * q 123685 10000 - h + q 5 10

/-- The same in `snap` of apsis.  v3/apsis/apsis.go:25-26. -/
def snapApsis (h : Ex) : Ex := (v 0 - q 199997 100) * q 132555 10000 - h + q 5 10

/-- The same in `node` of moonnode.  v3/moonnode/moonnode.go:32-33. -/
def snapNode (h : Ex) : Ex := (v 0 - q 200005 100) * q 134223 10000 - h + q 5 10

namespace Moonphase64

/-- `T`.  v3/moonphase/moonphase.go:105. -/
def T : Ex := v 0 * q 20 24737

/-- `mean`.  v3/moonphase/moonphase.go:17-18. -/
def mean : Ex := horner T [q 245155009766 100000, q 3652490883272785 100000000000, q 15437 100000000, q (-15) 100000000, q 73 100000000000]

/-- `E`.  v3/moonphase/moonphase.go:106. -/
def E : Ex := horner T [q 1 1, q (-2516) 1000000, q (-74) 10000000]

/-- `M`.  v3/moonphase/moonphase.go:107-108. -/
def M : Ex := horner T [p 25534 1800000, p 35998960434395 180000000000, p (-14) 1800000000, p (-11) 18000000000]

/-- `Mʹ`.  v3/moonphase/moonphase.go:109-110. -/
def M' : Ex := horner T [p 2015643 1800000, p 477197676401068 180000000000, p 107582 1800000000, p 1238 18000000000, p (-58) 180000000000]

/-- `F`.  v3/moonphase/moonphase.go:111-112. -/
def F : Ex := horner T [p 1607108 1800000, p 483200811437654 180000000000, p (-16118) 1800000000, p (-227) 18000000000, p 11 180000000000]

/-- `Ω`.  v3/moonphase/moonphase.go:113-114. -/
def Ω : Ex := horner T [p 1247746 1800000, p (-1934131460178) 180000000000, p 20672 1800000000, p 215 18000000000]

/-- `A[0]`.  v3/moonphase/moonphase.go:115. -/
def A0 : Ex := p 2997 1800 + p 107408 180000000 * v 0 - q 9173 1000000 * T * T

/-- `A[1]`.  v3/moonphase/moonphase.go:116. -/
def A1 : Ex := p 25188 18000 + p 16321 180000000 * v 0

/-- `A[2]`.  v3/moonphase/moonphase.go:117. -/
def A2 : Ex := p 25183 18000 + p 26651886 180000000 * v 0

/-- `A[3]`.  v3/moonphase/moonphase.go:118. -/
def A3 : Ex := p 34942 18000 + p 36412478 180000000 * v 0

/-- `A[4]`.  v3/moonphase/moonphase.go:119. -/
def A4 : Ex := p 8466 18000 + p 18206239 180000000 * v 0

/-- `A[5]`.  v3/moonphase/moonphase.go:120. -/
def A5 : Ex := p 14174 18000 + p 53303771 180000000 * v 0

/-- `A[6]`.  v3/moonphase/moonphase.go:121. -/
def A6 : Ex := p 20717 18000 + p 2453732 180000000 * v 0

/-- `A[7]`.  v3/moonphase/moonphase.go:122. -/
def A7 : Ex := p 15484 18000 + p 730686 18000000 * v 0

/-- `A[8]`.  v3/moonphase/moonphase.go:123. -/
def A8 : Ex := p 3452 18000 + p 27261239 180000000 * v 0

/-- `A[9]`.  v3/moonphase/moonphase.go:124. -/
def A9 : Ex := p 20719 18000 + p 121824 180000000 * v 0

/-- `A[10]`.  v3/moonphase/moonphase.go:125. -/
def A10 : Ex := p 29134 18000 + p 1844379 180000000 * v 0

/-- `A[11]`.  v3/moonphase/moonphase.go:126. -/
def A11 : Ex := p 16172 18000 + p 24198154 180000000 * v 0

/-- `A[12]`.  v3/moonphase/moonphase.go:127. -/
def A12 : Ex := p 23956 18000 + p 25513099 180000000 * v 0

/-- `A[13]`.  v3/moonphase/moonphase.go:128. -/
def A13 : Ex := p 33155 18000 + p 3592518 180000000 * v 0

/-- `nfc(&nc)`.  v3/moonphase/moonphase.go:133-159, coefficients 161-188. -/
def nfc_nc : Ex := sumFrom (q (-4072) 10000 * sin M')
   [q 17241 100000 * sin M * E, q 1608 100000 * sin (q 2 1 * M'), q 1039 100000 * sin (q 2 1 * F), q 739 100000 * sin (M' - M) * E,
    q (-514) 100000 * sin (M' + M) * E, q 208 100000 * sin (q 2 1 * M) * E * E, q (-111) 100000 * sin (M' - q 2 1 * F),
    q (-57) 100000 * sin (M' + q 2 1 * F), q 56 100000 * sin (q 2 1 * M' + M) * E, q (-42) 100000 * sin (q 3 1 * M'),
    q 42 100000 * sin (M + q 2 1 * F) * E, q 38 100000 * sin (M - q 2 1 * F) * E, q (-24) 100000 * sin (q 2 1 * M' - M) * E, q (-17) 100000 * sin Ω,
    q (-7) 100000 * sin (M' + q 2 1 * M), q 4 100000 * sin (q 2 1 * (M' - F)), q 4 100000 * sin (q 3 1 * M), q 3 100000 * sin (M' + M - q 2 1 * F),
    q 3 100000 * sin (q 2 1 * (M' + F)), q (-3) 100000 * sin (M' + M + q 2 1 * F), q 3 100000 * sin (M' - M + q 2 1 * F),
    q (-2) 100000 * sin (M' - M - q 2 1 * F), q (-2) 100000 * sin (q 3 1 * M' + M), q 2 100000 * sin (q 4 1 * M')]

/-- `nfc(&fc)`.  v3/moonphase/moonphase.go:133-159, coefficients 190-217. -/
def nfc_fc : Ex := sumFrom (q (-40614) 100000 * sin M')
   [q 17302 100000 * sin M * E, q 1614 100000 * sin (q 2 1 * M'), q 1043 100000 * sin (q 2 1 * F), q 734 100000 * sin (M' - M) * E,
    q (-515) 100000 * sin (M' + M) * E, q 209 100000 * sin (q 2 1 * M) * E * E, q (-111) 100000 * sin (M' - q 2 1 * F),
    q (-57) 100000 * sin (M' + q 2 1 * F), q 56 100000 * sin (q 2 1 * M' + M) * E, q (-42) 100000 * sin (q 3 1 * M'),
    q 42 100000 * sin (M + q 2 1 * F) * E, q 38 100000 * sin (M - q 2 1 * F) * E, q (-24) 100000 * sin (q 2 1 * M' - M) * E, q (-17) 100000 * sin Ω,
    q (-7) 100000 * sin (M' + q 2 1 * M), q 4 100000 * sin (q 2 1 * (M' - F)), q 4 100000 * sin (q 3 1 * M), q 3 100000 * sin (M' + M - q 2 1 * F),
    q 3 100000 * sin (q 2 1 * (M' + F)), q (-3) 100000 * sin (M' + M + q 2 1 * F), q 3 100000 * sin (M' - M + q 2 1 * F),
    q (-2) 100000 * sin (M' - M - q 2 1 * F), q (-2) 100000 * sin (q 3 1 * M' + M), q 2 100000 * sin (q 4 1 * M')]

/-- `flc`.  v3/moonphase/moonphase.go:220-246. -/
def flc : Ex := sumFrom (q (-62801) 100000 * sin M')
   [q 17172 100000 * sin M * E, q (-1183) 100000 * sin (M' + M) * E, q 862 100000 * sin (q 2 1 * M'), q 804 100000 * sin (q 2 1 * F),
    q 454 100000 * sin (M' - M) * E, q 204 100000 * sin (q 2 1 * M) * E * E, q (-18) 10000 * sin (M' - q 2 1 * F),
    q (-7) 10000 * sin (M' + q 2 1 * F), q (-4) 10000 * sin (q 3 1 * M'), q (-34) 100000 * sin (q 2 1 * M' - M),
    q 32 100000 * sin (M + q 2 1 * F) * E, q 32 100000 * sin (M - q 2 1 * F) * E, q (-28) 100000 * sin (M' + q 2 1 * M) * E * E,
    q 27 100000 * sin (q 2 1 * M' + M) * E, q (-17) 100000 * sin Ω, q (-5) 100000 * sin (M' - M - q 2 1 * F),
    q 4 100000 * sin (q 2 1 * M' + q 2 1 * F), q (-4) 100000 * sin (M' + M + q 2 1 * F), q 4 100000 * sin (M' - q 2 1 * M),
    q 3 100000 * sin (M' + M - q 2 1 * F), q 3 100000 * sin (q 3 1 * M), q 2 100000 * sin (q 2 1 * M' - q 2 1 * F),
    q 2 100000 * sin (M' - M + q 2 1 * F), q (-2) 100000 * sin (q 3 1 * M' + M)]

/-- `w`.  v3/moonphase/moonphase.go:248-251. -/
def w : Ex := q 306 100000 - q 38 100000 * E * cos M + q 26 100000 * cos M' - q 2 100000 * (cos (M' - M) - cos (M' + M) - cos (q 2 1 * F))

/-- `a`: the loop starts from zero.  v3/moonphase/moonphase.go:254-277. -/
def a : Ex := sumFrom (q 0 1)
   [q 325 1000000 * sin A0, q 165 1000000 * sin A1, q 164 1000000 * sin A2, q 126 1000000 * sin A3, q 11 100000 * sin A4, q 62 1000000 * sin A5,
    q 6 100000 * sin A6, q 56 1000000 * sin A7, q 47 1000000 * sin A8, q 42 1000000 * sin A9, q 4 100000 * sin A10, q 37 1000000 * sin A11,
    q 35 1000000 * sin A12, q 23 1000000 * sin A13]

/-- `New` after `snap`.  v3/moonphase/moonphase.go:68. -/
def New : Ex := mean + nfc_nc + a

/-- `First` after `snap`.  v3/moonphase/moonphase.go:76. -/
def First : Ex := mean + flc + w + a

/-- `Full` after `snap`.  v3/moonphase/moonphase.go:84. -/
def Full : Ex := mean + nfc_fc + a

/-- `Last` after `snap`.  v3/moonphase/moonphase.go:92. -/
def Last : Ex := mean + flc - w + a

end Moonphase64

namespace Apsis64

/-- `T`.  v3/apsis/apsis.go:82. -/
def T : Ex := v 0 * q 20 26511

/-- `mean`.  v3/apsis/apsis.go:19-20. -/
def mean : Ex := horner T [q 24515346698 10000, q 365249336066895 10000000000, q (-6691) 10000000, q (-1098) 1000000000, q 52 10000000000]

/-- `D`.  v3/apsis/apsis.go:83-84. -/
def D : Ex := horner T [p 1719179 1800000, p 44526630192753 18000000000, p (-100383) 1800000000, p (-1156) 18000000000, p 55 180000000000]

/-- `M`.  v3/apsis/apsis.go:85-86. -/
def M : Ex := horner T [p 3473477 1800000, p 35998984807155 180000000000, p (-813) 180000000, p (-1) 180000000]

/-- `F`.  v3/apsis/apsis.go:87-88. -/
def F : Ex := horner T [p 3166109 1800000, p 483201139042605 180000000000, p (-125053) 1800000000, p (-148) 1800000000]

/-- `pc`.  v3/apsis/apsis.go:93-154. -/
def pc : Ex := sumFrom (q (-16769) 10000 * sin (q 2 1 * D))
   [q 4589 10000 * sin (q 4 1 * D), q (-1856) 10000 * sin (q 6 1 * D), q 883 10000 * sin (q 8 1 * D),
    (q (-773) 10000 + q 19 100000 * T) * sin (q 2 1 * D - M), (q 502 10000 - q 13 100000 * T) * sin M, q (-46) 1000 * sin (q 10 1 * D),
    (q 422 10000 - q 11 100000 * T) * sin (q 4 1 * D - M), q (-256) 10000 * sin (q 6 1 * D - M), q 253 10000 * sin (q 12 1 * D), q 237 10000 * sin D,
    q 162 10000 * sin (q 8 1 * D - M), q (-145) 10000 * sin (q 14 1 * D), q 129 10000 * sin (q 2 1 * F), q (-112) 10000 * sin (q 3 1 * D),
    q (-104) 10000 * sin (q 10 1 * D - M), q 86 10000 * sin (q 16 1 * D), q 69 10000 * sin (q 12 1 * D - M), q 66 10000 * sin (q 5 1 * D),
    q (-53) 10000 * sin (q 2 1 * (D + F)), q (-52) 10000 * sin (q 18 1 * D), q (-46) 10000 * sin (q 14 1 * D - M), q (-41) 10000 * sin (q 7 1 * D),
    q 4 1000 * sin (q 2 1 * D + M), q 32 10000 * sin (q 20 1 * D), q (-32) 10000 * sin (D + M), q 31 10000 * sin (q 16 1 * D - M),
    q (-29) 10000 * sin (q 4 1 * D + M), q 27 10000 * sin (q 9 1 * D), q 27 10000 * sin (q 4 1 * D + q 2 1 * F),
    q (-27) 10000 * sin (q 2 1 * (D - M)), q 24 10000 * sin (q 4 1 * D - q 2 1 * M), q (-21) 10000 * sin (q 6 1 * D - q 2 1 * M),
    q (-21) 10000 * sin (q 22 1 * D), q (-21) 10000 * sin (q 18 1 * D - M), q 19 10000 * sin (q 6 1 * D + M), q (-18) 10000 * sin (q 11 1 * D),
    q (-14) 10000 * sin (q 8 1 * D + M), q (-14) 10000 * sin (q 4 1 * D - q 2 1 * F), q (-14) 10000 * sin (q 6 1 * D + q 2 1 * F),
    q 14 10000 * sin (q 3 1 * D + M), q (-14) 10000 * sin (q 5 1 * D + M), q 13 10000 * sin (q 13 1 * D), q 13 10000 * sin (q 20 1 * D - M),
    q 11 10000 * sin (q 3 1 * D + q 2 1 * M), q (-11) 10000 * sin (q 2 1 * (q 2 1 * D + F - M)), q (-1) 1000 * sin (D + q 2 1 * M),
    q (-9) 10000 * sin (q 22 1 * D - M), q (-8) 10000 * sin (q 4 1 * F), q 8 10000 * sin (q 6 1 * D - q 2 1 * F),
    q 8 10000 * sin (q 2 1 * (D - F) + M), q 7 10000 * sin (q 2 1 * M), q 7 10000 * sin (q 2 1 * F - M), q 7 10000 * sin (q 2 1 * D + q 4 1 * F),
    q (-6) 10000 * sin (q 2 1 * (F - M)), q (-6) 10000 * sin (q 2 1 * (D - F + M)), q 6 10000 * sin (q 24 1 * D), q 5 10000 * sin (q 4 1 * (D - F)),
    q 5 10000 * sin (q 2 1 * (D + M)), q (-4) 10000 * sin (D - M)]

/-- `ac`.  v3/apsis/apsis.go:157-190. -/
def ac : Ex := sumFrom (q 4392 10000 * sin (q 2 1 * D))
   [q 684 10000 * sin (q 4 1 * D), (q 456 10000 - q 11 100000 * T) * sin M, (q 426 10000 - q 11 100000 * T) * sin (q 2 1 * D - M),
    q 212 10000 * sin (q 2 1 * F), q (-189) 10000 * sin D, q 144 10000 * sin (q 6 1 * D), q 113 10000 * sin (q 4 1 * D - M),
    q 47 10000 * sin (q 2 1 * (D + F)), q 36 10000 * sin (D + M), q 35 10000 * sin (q 8 1 * D), q 34 10000 * sin (q 6 1 * D - M),
    q (-34) 10000 * sin (q 2 1 * (D - F)), q 22 10000 * sin (q 2 1 * (D - M)), q (-17) 10000 * sin (q 3 1 * D),
    q 13 10000 * sin (q 4 1 * D + q 2 1 * F), q 11 10000 * sin (q 8 1 * D - M), q 1 1000 * sin (q 4 1 * D - q 2 1 * M), q 9 10000 * sin (q 10 1 * D),
    q 7 10000 * sin (q 3 1 * D + M), q 6 10000 * sin (q 2 1 * M), q 5 10000 * sin (q 2 1 * D + M), q 5 10000 * sin (q 2 1 * (D + M)),
    q 4 10000 * sin (q 6 1 * D + q 2 1 * F), q 4 10000 * sin (q 6 1 * D - q 2 1 * M), q 4 10000 * sin (q 10 1 * D - M),
    q (-4) 10000 * sin (q 5 1 * D), q (-4) 10000 * sin (q 4 1 * D - q 2 1 * F), q 3 10000 * sin (q 2 1 * F + M), q 3 10000 * sin (q 12 1 * D),
    q 3 10000 * sin (q 2 1 * D + q 2 1 * F - M), q (-3) 10000 * sin (D - M)]

/-- `ap`, the argument of unit.AngleFromSec.  v3/apsis/apsis.go:193-213. -/
def ap : Ex := sumFrom (q 3245251 1000)
   [q (-9147) 1000 * cos (q 2 1 * D), q (-841) 1000 * cos D, q 697 1000 * cos (q 2 1 * F), (q (-656) 1000 + q 16 10000 * T) * cos M,
    q 355 1000 * cos (q 4 1 * D), q 159 1000 * cos (q 2 1 * D - M), q 127 1000 * cos (D + M), q 65 1000 * cos (q 4 1 * D - M),
    q 52 1000 * cos (q 6 1 * D), q 43 1000 * cos (q 2 1 * D + M), q 31 1000 * cos (q 2 1 * (D + F)), q (-23) 1000 * cos (q 2 1 * (D - F)),
    q 22 1000 * cos (q 2 1 * (D - M)), q 19 1000 * cos (q 2 1 * (D + M)), q (-16) 1000 * cos (q 2 1 * M), q 14 1000 * cos (q 6 1 * D - M),
    q 1 100 * cos (q 8 1 * D)]

/-- `pp`, the argument of unit.AngleFromSec.  v3/apsis/apsis.go:216-265. -/
def pp : Ex := sumFrom (q 3629215 1000)
   [q 63224 1000 * cos (q 2 1 * D), q (-699) 100 * cos (q 4 1 * D), (q 2834 1000 - q 71 10000 * T) * cos (q 2 1 * D - M),
    q 1927 1000 * cos (q 6 1 * D), q (-1263) 1000 * cos D, q (-702) 1000 * cos (q 8 1 * D), (q 696 1000 - q 17 10000 * T) * cos M,
    q (-69) 100 * cos (q 2 1 * F), (q (-629) 1000 + q 16 10000 * T) * cos (q 4 1 * D - M), q (-392) 1000 * cos (q 2 1 * (D - F)),
    q 297 1000 * cos (q 10 1 * D), q 26 100 * cos (q 6 1 * D - M), q 201 1000 * cos (q 3 1 * D), q (-161) 1000 * cos (q 2 1 * D + M),
    q 157 1000 * cos (D + M), q (-138) 1000 * cos (q 12 1 * D), q (-127) 1000 * cos (q 8 1 * D - M), q 104 1000 * cos (q 2 1 * (D + F)),
    q 104 1000 * cos (q 2 1 * (D - M)), q (-79) 1000 * cos (q 5 1 * D), q 68 1000 * cos (q 14 1 * D), q 67 1000 * cos (q 10 1 * D - M),
    q 54 1000 * cos (q 4 1 * D + M), q (-38) 1000 * cos (q 12 1 * D - M), q (-38) 1000 * cos (q 4 1 * D - q 2 1 * M), q 37 1000 * cos (q 7 1 * D),
    q (-37) 1000 * cos (q 4 1 * D + q 2 1 * F), q (-35) 1000 * cos (q 16 1 * D), q (-3) 100 * cos (q 3 1 * D + M), q 29 1000 * cos (D - M),
    q (-25) 1000 * cos (q 6 1 * D + M), q 23 1000 * cos (q 2 1 * M), q 23 1000 * cos (q 14 1 * D - M), q (-23) 1000 * cos (q 2 1 * (D + M)),
    q 22 1000 * cos (q 6 1 * D - q 2 1 * M), q (-21) 1000 * cos (q 2 1 * D - q 2 1 * F - M), q (-2) 100 * cos (q 9 1 * D),
    q 19 1000 * cos (q 18 1 * D), q 17 1000 * cos (q 6 1 * D + q 2 1 * F), q 14 1000 * cos (q 2 1 * F - M), q (-14) 1000 * cos (q 16 1 * D - M),
    q 13 1000 * cos (q 4 1 * D - q 2 1 * F), q 12 1000 * cos (q 8 1 * D + M), q 11 1000 * cos (q 11 1 * D), q 1 100 * cos (q 5 1 * D + M),
    q (-1) 100 * cos (q 20 1 * D)]

/-- `Perigee` after `snap`.  v3/apsis/apsis.go:41. -/
def Perigee : Ex := mean + pc

/-- `Apogee` after `snap`.  v3/apsis/apsis.go:56. -/
def Apogee : Ex := mean + ac

end Apsis64

namespace Moonnode64

/-- `T`.  v3/moonnode/moonnode.go:36. -/
def T : Ex := v 0 * q 100 134223

/-- `D`.  v3/moonnode/moonnode.go:37-38. -/
def D : Ex := horner T [p 183638 180000, p 4452678324445086 1800000000000, p 14852 1800000000, p 209 18000000000, p (-1) 18000000000]

/-- `M`.  v3/moonnode/moonnode.go:39-40. -/
def M : Ex := horner T [p 174006 1800000, p 35999108580675 180000000000, p 1186 1800000000, p 6 18000000000]

/-- `Mʹ`.  v3/moonnode/moonnode.go:41-42. -/
def M' : Ex := horner T [p 383776 1800000, p 4771996402592799 1800000000000, p 123499 1800000000, p 14627 180000000000, p (-69) 180000000000]

/-- `Ω`.  v3/moonnode/moonnode.go:43-44. -/
def Ω : Ex := horner T [p 1239767 1800000, p (-19341394171188) 1800000000000, p 20608 1800000000, p 214 18000000000, p (-16) 180000000000]

/-- `V`.  v3/moonnode/moonnode.go:45. -/
def V : Ex := horner T [p 29975 18000, p 13285 18000, p (-9173) 180000000]

/-- `P`.  v3/moonnode/moonnode.go:46. -/
def P : Ex := Ω + p 27275 18000 - p 23 1800 * T

/-- `E`.  v3/moonnode/moonnode.go:47. -/
def E : Ex := horner T [q 1 1, q (-2516) 1000000, q (-74) 10000000]

/-- `node` after the snap.  v3/moonnode/moonnode.go:48-71. -/
def node : Ex := sumFrom (horner T [q 24515651619 10000, q 3652505914720191 100000000000, q 2762 10000000, q 21 1000000000, q (-88) 1000000000000])
   [q (-4721) 10000 * sin M', q (-1649) 10000 * sin (q 2 1 * D), q (-868) 10000 * sin (q 2 1 * D - M'), q 84 10000 * sin (q 2 1 * D + M'),
    q (-83) 10000 * sin (q 2 1 * D - M) * E, q (-39) 10000 * sin (q 2 1 * D - M - M') * E, q 34 10000 * sin (q 2 1 * M'),
    q (-31) 10000 * sin (q 2 1 * (D - M')), q 3 1000 * sin (q 2 1 * D + M) * E, q 28 10000 * sin (M - M') * E, q 26 10000 * sin M * E,
    q 25 10000 * sin (q 4 1 * D), q 24 10000 * sin D, q 22 10000 * sin (M + M') * E, q 17 10000 * sin Ω, q 14 10000 * sin (q 4 1 * D - M'),
    q 5 10000 * sin (q 2 1 * D + M - M') * E, q 4 10000 * sin (q 2 1 * D - M + M') * E, q (-3) 10000 * sin (q 2 1 * (D - M)) * E,
    q 3 10000 * sin (q 4 1 * D - M) * E, q 3 10000 * sin V, q 3 10000 * sin P]

end Moonnode64

namespace Eclipse64

/-- `T`.  v3/eclipse/eclipse.go:18. -/
def T : Ex := v 0 * q 20 24737

/-- `F`.  v3/eclipse/eclipse.go:19-20. -/
def F : Ex := horner T [p 1607108 1800000, p 483200811437654 180000000000, p (-16118) 1800000000, p (-227) 18000000000, p 11 180000000000]

/-- `E`.  v3/eclipse/eclipse.go:25. -/
def E : Ex := horner T [q 1 1, q (-2516) 1000000, q (-74) 10000000]

/-- `M`.  v3/eclipse/eclipse.go:26-27. -/
def M : Ex := horner T [p 25534 1800000, p 35998960434395 180000000000, p (-14) 1800000000, p (-11) 18000000000]

/-- `Mʹ`.  v3/eclipse/eclipse.go:28-29. -/
def M' : Ex := horner T [p 2015643 1800000, p 477197676401068 180000000000, p 107582 1800000000, p 1238 18000000000, p (-58) 180000000000]

/-- `Ω`.  v3/eclipse/eclipse.go:30-31. -/
def Ω : Ex := horner T [p 1247746 1800000, p (-1934131460178) 180000000000, p 20672 1800000000, p 215 18000000000]

/-- `sΩ`.  v3/eclipse/eclipse.go:32. -/
def sΩ : Ex := sin Ω

/-- `F1`.  v3/eclipse/eclipse.go:33. -/
def F1 : Ex := F - p 2665 18000000 * sΩ

/-- `A1`.  v3/eclipse/eclipse.go:34. -/
def A1 : Ex := horner T [p 29977 18000, p 1328475848 1800000000, p (-9173) 180000000]

/-- `jmax` with the constants of `Solar`.  v3/eclipse/eclipse.go:36-52. -/
def jmaxSolar : Ex := sumFrom (v 1)
   [q (-4075) 10000 * sin M', q 1721 10000 * sin M * E, q 161 10000 * sin (q 2 1 * M'), q (-97) 10000 * sin (q 2 1 * F1),
    q 73 10000 * sin (M' - M) * E, q (-5) 1000 * sin (M' + M) * E, q (-23) 10000 * sin (M' - q 2 1 * F1), q 21 10000 * sin (q 2 1 * M) * E,
    q 12 10000 * sin (M' + q 2 1 * F1), q 6 10000 * sin (q 2 1 * M' + M) * E, q (-4) 10000 * sin (q 3 1 * M'),
    q (-3) 10000 * sin (M + q 2 1 * F1) * E, q 3 10000 * sin A1, q (-2) 10000 * sin (M - q 2 1 * F1) * E, q (-2) 10000 * sin (q 2 1 * M' - M) * E,
    q (-2) 10000 * sΩ]

/-- `jmax` with the constants of `Lunar`.  v3/eclipse/eclipse.go:36-52. -/
def jmaxLunar : Ex := sumFrom (v 1)
   [q (-4065) 10000 * sin M', q 1727 10000 * sin M * E, q 161 10000 * sin (q 2 1 * M'), q (-97) 10000 * sin (q 2 1 * F1),
    q 73 10000 * sin (M' - M) * E, q (-5) 1000 * sin (M' + M) * E, q (-23) 10000 * sin (M' - q 2 1 * F1), q 21 10000 * sin (q 2 1 * M) * E,
    q 12 10000 * sin (M' + q 2 1 * F1), q 6 10000 * sin (q 2 1 * M' + M) * E, q (-4) 10000 * sin (q 3 1 * M'),
    q (-3) 10000 * sin (M + q 2 1 * F1) * E, q 3 10000 * sin A1, q (-2) 10000 * sin (M - q 2 1 * F1) * E, q (-2) 10000 * sin (q 2 1 * M' - M) * E,
    q (-2) 10000 * sΩ]

/-- `P`.  v3/eclipse/eclipse.go:53-59. -/
def P : Ex := sumFrom (q 207 1000 * sin M * E)
   [q 24 10000 * sin (q 2 1 * M) * E, q (-392) 10000 * sin M', q 116 10000 * sin (q 2 1 * M'), q (-73) 10000 * sin (M' + M) * E,
    q 67 10000 * sin (M' - M) * E, q 118 10000 * sin (q 2 1 * F1)]

/-- `Q`.  v3/eclipse/eclipse.go:60-65. -/
def Q : Ex := sumFrom (q 52207 10000)
   [q (-48) 10000 * cos M * E, q 2 1000 * cos (q 2 1 * M) * E, q (-3299) 10000 * cos M', q (-6) 1000 * cos (M' + M) * E, q 41 10000 * cos (M' - M) * E]

/-- math.Sincos.  v3/eclipse/eclipse.go:66. -/
def sF1 : Ex := sin F1

/-- math.Sincos.  v3/eclipse/eclipse.go:66. -/
def cF1 : Ex := cos F1

/-- `W`.  v3/eclipse/eclipse.go:67. -/
def W : Ex := Ex.abs cF1

/-- `γ`.  v3/eclipse/eclipse.go:68. -/
def γ : Ex := (P * cF1 + Q * sF1) * (q 1 1 - q 48 10000 * W)

/-- `u`.  v3/eclipse/eclipse.go:69-73. -/
def u : Ex := sumFrom (q 59 10000)
   [q 46 10000 * cos M * E, q (-182) 10000 * cos M', q 4 10000 * cos (q 2 1 * M'), q (-5) 10000 * cos (M + M')]

end Eclipse64

end Verif.Model
