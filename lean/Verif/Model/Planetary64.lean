import Verif.Go.FloatExpr
import Verif.Model.Planetary
/-
Package planetary (v3/planetary/planetary.go) in double precision.  The expressions are those of the code, operation by operation and in the order of the
code; the tables are written by a script from the source.
-/
namespace Verif.Model.Planetary64

open Verif.Go.F64 Verif.Go.F64.Ex

/-- Type `ca`, in units of 10⁻³, 10⁻⁷, 10⁻⁴ and 10⁻⁷.  v3/planetary/planetary.go:166-169. -/
structure Ca where
  A : ℤ
  B : ℤ
  M0 : ℤ
  M1 : ℤ

/-- `micA`.  v3/planetary/planetary.go:173. -/
def micA : Ca := ⟨2451612023, 1158774771, 635867, 1142088742⟩
/-- `mscA`.  v3/planetary/planetary.go:174. -/
def mscA : Ca := ⟨2451554084, 1158774771, 64822, 1142088742⟩
/-- `vicA`.  v3/planetary/planetary.go:175. -/
def vicA : Ca := ⟨2451996706, 5839213610, 827311, 2155130580⟩
/-- `moA`.  v3/planetary/planetary.go:177. -/
def moA : Ca := ⟨2452097382, 7799361040, 1819573, 487052440⟩
/-- `joA`.  v3/planetary/planetary.go:179. -/
def joA : Ca := ⟨2451870628, 3988840460, 3184681, 331402290⟩
/-- `soA`.  v3/planetary/planetary.go:181. -/
def soA : Ca := ⟨2451870170, 3780919040, 3180172, 126474870⟩
/-- `scA`.  v3/planetary/planetary.go:182. -/
def scA : Ca := ⟨2451681124, 3780919040, 1316934, 126474870⟩
/-- `uoA`.  v3/planetary/planetary.go:183. -/
def uoA : Ca := ⟨2451764317, 3696560350, 2136884, 43330930⟩
/-- `noA`.  v3/planetary/planetary.go:185. -/
def noA : Ca := ⟨2451753122, 3674867030, 2026544, 21949980⟩

/-- `jaa`, in units of 10⁻².  v3/planetary/planetary.go:194-196. -/
def jaa : List (ℤ × ℤ) := [(8274, 4076)]
/-- `saa`, in units of 10⁻².  v3/planetary/planetary.go:198-203. -/
def saa : List (ℤ × ℤ) := [(8274, 4076), (2986, 118136), (1413, 59068), (22002, 126287)]
/-- `uaa`, in units of 10⁻².  v3/planetary/planetary.go:205-208. -/
def uaa : List (ℤ × ℤ) := [(20783, 851), (10884, 41996)]
/-- `naa`, in units of 10⁻².  v3/planetary/planetary.go:210-213. -/
def naa : List (ℤ × ℤ) := [(20783, 851), (27674, 20998)]

/-- `micB`, in units of 10⁻⁵.  v3/planetary/planetary.go:218-230. -/
def micB : List (List ℤ) :=
  [[5450, 20], [-620080, 740, 3], [-327500, -1970, 1], [47370, -520, -1], [81110, 330, -2], [370, 180], [-17680, 0, 1], [-2110, -40], [3260, -30], [830, 10], [-400, 10]]
/-- `mscB`, in units of 10⁻⁵.  v3/planetary/planetary.go:233-245. -/
def mscB : List (List ℤ) :=
  [[-5480, -20], [738940, -1000, -3], [322000, 1970, -1], [83830, -640, -1], [96660, 390, -3], [7700, -260], [27580, 20, -2], [-1280, -80], [7340, -40, -1], [-1220, -20], [1730, -20]]
/-- `vicB`, in units of 10⁻⁵.  v3/planetary/planetary.go:248-256. -/
def vicB : List (List ℤ) :=
  [[-960, 20, -1], [200090, -330, -1], [59800, -1040, 1], [9670, -180, -3], [9130, 90, -2], [460, -20], [790, 10]]
/-- `moB`, in units of 10⁻⁵.  v3/planetary/planetary.go:259-271. -/
def moB : List (List ℤ) :=
  [[-30880, 0, 2], [-1769650, 3630, 5], [1831310, 4670, -6], [-21620, -1980, -1], [-450280, -190, 7], [89870, 580, -2], [76660, -500, -3], [-36360, -10, 2], [4020, 320], [7370, -80], [-9800, -110]]
/-- `joB`, in units of 10⁻⁵.  v3/planetary/planetary.go:274-284. -/
def joB : List (List ℤ) :=
  [[-10290, 0, -9], [-196580, -560, 7], [615370, 2100, -6], [-20810, -130], [-11160, -100], [740, 10], [-970, -10], [0, 1440, -8], [36420, -190, -29]]
/-- `soB`, in units of 10⁻⁵.  v3/planetary/planetary.go:287-303. -/
def soB : List (List ℤ) :=
  [[-2090, 60, 23], [457950, -3120, -17], [114620, -3510, 11], [9850, -150], [7330, -310, 1], [250, -10], [500, -20], [0, -3370, 18], [-85100, 440, 68], [0, -640, 4], [23970, -120, -8], [0, -100], [12450, 60], [0, 240, -3], [4770, -50, -6]]
/-- `scB`, in units of 10⁻⁵.  v3/planetary/planetary.go:306-322. -/
def scB : List (List ℤ) :=
  [[1720, -60, 23], [-858850, 4110, 20], [-114700, 3520, -11], [33310, -340, -1], [11450, -450, 2], [-1690, 20], [-1090, 40], [0, -3370, 18], [-85100, 440, 68], [0, -640, 4], [23970, -120, -8], [0, -100], [12450, 60], [0, 240, -3], [4770, -50, -6]]
/-- `uoB`, in units of 10⁻⁵.  v3/planetary/planetary.go:325-337. -/
def uoB : List (List ℤ) :=
  [[8440, -60], [-10480, 2460], [-512210, 1040, 3], [-14280, 50], [-1480, -130], [0], [550], [0], [88500], [0], [21530]]
/-- `noB`, in units of 10⁻⁵.  v3/planetary/planetary.go:340-350. -/
def noB : List (List ℤ) :=
  [[-1400, 0, 1], [-134860, 100, 1], [85970, 370], [-820, -20, 1], [370, -30], [0], [-59640], [0], [7280]]
/-- `met`, in units of 10⁻⁵.  v3/planetary/planetary.go:355-367. -/
def met : List (List ℤ) :=
  [[-2161060, 20], [-198030, -600, 1], [141510, -720, -1], [55280, -50, -1], [29050, 340, 1], [-11210, -10, 1], [-980, -150], [1920], [1110, 40], [-610], [-320, -10]]
/-- `mee`, in units of 10⁻⁵.  v3/planetary/planetary.go:370-382. -/
def mee : List (List ℤ) :=
  [[2246970], [-426660, 540, 2], [-185370, -1370], [35980, 80, -1], [-6800, 260], [-5240, -30], [520, -60], [1070, 10], [-130, 10], [-210], [30]]
/-- `mwt`, in units of 10⁻⁵.  v3/planetary/planetary.go:385-397. -/
def mwt : List (List ℤ) :=
  [[2162490, -20], [13060, 650], [-276610, -110, 1], [24380, -240, -1], [57670, 230], [10410], [-1840, 70], [-510, -10], [480, 10], [260], [370]]
/-- `mwe`, in units of 10⁻⁵.  v3/planetary/planetary.go:400-412. -/
def mwe : List (List ℤ) :=
  [[2241430, -10], [436510, -480, -2], [237870, 1210, -1], [26740, 220], [-38730, 80, 1], [-3690, -10], [170, -10], [590], [610, 10], [70], [-110]]
/-- `ms2`, in units of 10⁻⁵.  v3/planetary/planetary.go:417-429. -/
def ms2 : List (List ℤ) :=
  [[3671910, 160, 3], [-1261630, 4170, -1], [2012180, 3790, -6], [-163600, -1900], [-396570, 450, 7], [115460, 290, -3], [28880, -730, -2], [-31280, 170, 2], [25130, 260, -2], [-210, -160], [-14970, -60]]

/-- The dividend in `mean`; variable 0 is the year.  v3/planetary/planetary.go:20. -/
def num (a : Ca) : Ex := q 3652425 10000 * v 0 + q 1721060 1 - q a.A 1000

/-- `J`; variable 0 is k.  v3/planetary/planetary.go:21. -/
def J (a : Ca) : Ex := q a.A 1000 + v 0 * q a.B 10000000

/-- The argument of PMod; variable 0 is k.  v3/planetary/planetary.go:22. -/
def anom (a : Ca) : Ex := q a.M0 10000 + v 0 * q a.M1 10000000

/-- `M`; variable 1 is what PMod returns.  v3/planetary/planetary.go:22. -/
def M : Ex := v 1 * p 1 1 / q 180 1

/-- `T`.  v3/planetary/planetary.go:23, v3/base/julian.go:54-60. -/
def T (a : Ca) : Ex := (J a - q 2451545 1) / q 36525 1

/-- The coefficients of a row. -/
def row (l : List ℤ) : List Ex := l.map fun n => q n 100000

/-- The loop of `sum`.  v3/planetary/planetary.go:31-37. -/
def sumLoop (T M : Ex) : Ex → List (List ℤ) → Ex → Ex
  | mm, a :: b :: rest, j => sumLoop T M (mm + M) rest (j + sin (mm + M) * horner T (row a) + cos (mm + M) * horner T (row b))
  | _, _, j => j

/-- `sum`.  v3/planetary/planetary.go:28-39. -/
def sum (T M : Ex) : List (List ℤ) → Ex
  | [] => q 0 1
  | c0 :: rest => sumLoop T M (q 0 1) rest (horner T (row c0))

/-- An additional angle.  v3/planetary/planetary.go:84. -/
def angle (T : Ex) (a : ℤ × ℤ) : Ex := (q a.1 100 + q a.2 100 * T) * p 1 1 / q 180 1

/-- The loop of `sumA`.  v3/planetary/planetary.go:83-89. -/
def addLoop (T : Ex) : List (ℤ × ℤ) → List (List ℤ) → Ex → Ex
  | x :: aa, a :: b :: rest, j => addLoop T aa rest (j + sin (angle T x) * horner T (row a) + cos (angle T x) * horner T (row b))
  | _, _, j => j

/-- `sumA`; with no additional angles it is `sum`.  v3/planetary/planetary.go:80-91. -/
def sumA (T M : Ex) (c : List (List ℤ)) (aa : List (ℤ × ℤ)) : Ex :=
  addLoop T aa (c.drop (c.length - 2 * aa.length)) (sum T M (c.take (c.length - 2 * aa.length)))

/-- `mean`: k and what PMod returns, `pm` being unit.PMod(·, 360).  v3/planetary/planetary.go:18-25. -/
def mean (l : Trig) (pm : ℝ → ℝ) (y : ℝ) (a : Ca) (k r : ℝ) : Prop :=
  ∃ n m, Run l (fun _ => y) (num a) n ∧ k = ⌊fl (fl (n / fl ((a.B : ℝ) / 10000000)) + 0.5)⌋ ∧ Run l (fun _ => k) (anom a) m ∧ r = pm m

/-- `msa`, and `ms` when there are no additional angles.  v3/planetary/planetary.go:42-45, 94-97. -/
def msa (l : Trig) (pm : ℝ → ℝ) (y : ℝ) (a : Ca) (c : List (List ℤ)) (aa : List (ℤ × ℤ)) (out : ℝ) : Prop :=
  ∃ k r, mean l pm y a k r ∧ Run l (fun i => if i = 0 then k else r) (J a + sumA (T a) M c aa) out

/-- The elongation in degrees of `el`.  v3/planetary/planetary.go:140-143. -/
def elong (l : Trig) (pm : ℝ → ℝ) (y : ℝ) (e : List (List ℤ)) (out : ℝ) : Prop :=
  ∃ k r, mean l pm y micA k r ∧ Run l (fun i => if i = 0 then k else r) (sum (T micA) M e) out

end Verif.Model.Planetary64
