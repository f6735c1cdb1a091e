import Verif.Lemmas.TaylorModel
/-
Computed enclosures for C178 and C179: sines and cosines of the angles of precession as polynomials in the two epochs, from 1800 to 2200.
-/
namespace Verif.Props

open Verif.Lemmas Verif.Lemmas.TM

def xsec : Ex := .mul .degree (.const 1 3600)

/-- ((a + b T + c T²) t + (d + e T) t² + f t³) arc seconds. -/
def form (T t a b c d e f : Ex) : Ex :=
  .mul (.mul (.add (.mul (.add (.mul f t) (.add d (.mul e T))) t) (.add a (.mul (.add b (.mul c T)) T))) t) xsec

def xζ (T t : Ex) : Ex :=
  form T t (.const 23062181 10000) (.const 139656 100000) (.const (-139) 1000000) (.const 30188 100000) (.const (-344) 1000000) (.const 17998 1000000)
def xz (T t : Ex) : Ex :=
  form T t (.const 23062181 10000) (.const 139656 100000) (.const (-139) 1000000) (.const 109468 100000) (.const 66 1000000) (.const 18203 1000000)
def xθ (T t : Ex) : Ex :=
  form T t (.const 20043109 10000) (.const (-85330) 100000) (.const (-217) 1000000) (.const (-42665) 100000) (.const (-217) 1000000)
    (.const (-41833) 1000000)
def xη (T t : Ex) : Ex :=
  form T t (.const 470029 10000) (.const (-6603) 100000) (.const 598 1000000) (.const (-3302) 100000) (.const 598 1000000) (.const 60 1000000)
def xp (T t : Ex) : Ex :=
  form T t (.const 50290966 10000) (.const 222226 100000) (.const (-42) 1000000) (.const 111113 100000) (.const (-42) 1000000) (.const (-6) 1000000)

/-- The node of the ecliptics less 180 degrees. -/
def xn (T t : Ex) : Ex :=
  .add (.mul (.const (-5123616) 1000000) .degree) (.mul (.add (.mul (.add (.const 32894789 10000) (.mul (.const 60622 100000) T)) T)
    (.mul (.add (.add (.const (-8698089) 10000) (.mul (.const (-50491) 100000) T)) (.mul (.const 3536 100000) t)) t)) xsec)

/-- The obliquity. -/
def xε (T : Ex) : Ex :=
  .mul (.add (.const 84381448 1000) (.mul (.add (.const (-46815) 1000) (.mul (.add (.const (-59) 100000) (.mul (.const 1813 1000000) T)) T)) T)) xsec

/-- Equatorial precession, the angles numbered i, i + 1, i + 2. -/
def xE (i : ℕ) (v : Ex3) : Ex3 :=
  Ex3.rz (.atom (2 * i + 2)) (.atom (2 * i + 3)) (Ex3.ry (Ex.atom (2 * i + 4)).neg (.atom (2 * i + 5)) (Ex3.rz (.atom (2 * i)) (.atom (2 * i + 1)) v))

/-- Ecliptic precession, the angles numbered i, i + 1, i + 2. -/
def xL (i : ℕ) (v : Ex3) : Ex3 :=
  Ex3.rz (.atom (2 * i + 2)) (.atom (2 * i + 3)) (Ex3.rx (.atom (2 * i + 4)) (.atom (2 * i + 5)) (Ex3.rz (Ex.atom (2 * i)).neg (.atom (2 * i + 1)) v))

/-- The angles of equatorial and of ecliptic precession. -/
def aE (T t : Ex) : List Ex := [xζ T t, xz T t, xθ T t]
def aL (T t : Ex) : List Ex := [xn T t, .add (xn T t) (xp T t), xη T t]

/-- What is computed: the maps differ by less than B units. -/
def chk (σ : ℕ → TM.M) (f g : Ex3 → Ex3) (B : ℤ) : Bool :=
  ((f Ex3.e0).sub (g Ex3.e0)).ok σ && ((f Ex3.e1).sub (g Ex3.e1)).ok σ && ((f Ex3.e2).sub (g Ex3.e2)).ok σ &&
    decide (((f Ex3.e0).sub (g Ex3.e0)).bd σ + ((f Ex3.e1).sub (g Ex3.e1)).bd σ + ((f Ex3.e2).sub (g Ex3.e2)).bd σ ≤ B ^ 2)

/-- The times in centuries from 2000 of epochs within k centuries of 2000. -/
def xT (k : ℤ) : Ex := .mul (.const k 1) .X
def xT' (k : ℤ) : Ex := .mul (.const k 1) .Y
def xt (k : ℤ) : Ex := (xT' k).sub (xT k)
def xz0 : Ex := .const 0 1

/-- Angles: from e1 to e2; from e1 to 2000 and from 2000 to e2; there and back; the obliquities. -/
def angE (k : ℤ) : List Ex := aE (xT k) (xt k) ++ (aE (xT k) (xT k).neg ++ aE xz0 (xT' k))
def angL (k : ℤ) : List Ex := aL (xT k) (xt k) ++ (aL (xT k) (xT k).neg ++ aL xz0 (xT' k))
def angB (k : ℤ) : List Ex := aL (xT k) (xt k) ++ aL (xT' k) (xt k).neg
def angR (k : ℤ) : List Ex := aE (xT k) (xt k) ++ (aL (xT k) (xt k) ++ [xε (xT k), xε (xT' k)])

/-- From the equator to the ecliptic, ecliptic precession, and to the equator. -/
def xR (v : Ex3) : Ex3 := Ex3.rx (.atom 14) (.atom 15) (xL 3 (Ex3.rx (Ex.atom 12).neg (.atom 13) v))

theorem checkAngles_append {as bs : List Ex} {ms ns : List (TM.M × TM.M)} (hl : as.length = ms.length) (h : checkAngles as ms = true)
    (h' : checkAngles bs ns = true) : checkAngles (as ++ bs) (ms ++ ns) = true := by
  induction as generalizing ms with
  | nil =>
    have : ms = [] := by rw [← List.length_eq_zero_iff, ← hl]; rfl
    subst this; exact h'
  | cons a as ih =>
    cases ms with
    | nil => simp at hl
    | cons m ms =>
      simp only [List.cons_append, checkAngles, Bool.and_eq_true] at h ⊢
      exact ⟨h.1, ih (by simpa using hl) h.2⟩

theorem checkAngles_cons {a : Ex} {as : List Ex} {m : TM.M × TM.M} {ms : List (TM.M × TM.M)} (h : checkAngles [a] [m] = true)
    (h' : checkAngles as ms = true) : checkAngles (a :: as) (m :: ms) = true := checkAngles_append rfl h h'

set_option maxRecDepth 100000

/-! Enclosures of the sines and cosines -/

def mE0 : TM.M × TM.M := (⟨[[0, 22361721730047139, 5854222162133, -1165596351543, -1463691941, -128317383, -30424], [-22361721730047140,
    15374411455344, 3483446982120, -916577198, 641377309, 43232], [-21228633617478, -3475496037752, 11531883233, -1289188461, 246825], [1157645407171,
    -14459267115, 1302475343, -811207], [5307653018, -661307635, 976691], [134960823, -540689], [115568]], 751984⟩, ⟨[[1000000000000000000, 0,
    -250023299366031, -130910486935, -5208219808, 6823661, 887915], [0, 500046598732063, -212887823792, 20972681895, -2472514, -5303392],
    [-250023299366031, 818507108391, -31914912458, -57953638, 13283583], [-474708797663, 21744658474, 120605413, -17858737], [-5594208098, -91578148,
    13589940], [24575231, -5548504], [949204]], 171493⟩)
def mE1 : TM.M × TM.M := (⟨[[0, 22361721730047139, 21228633617477, -1157645407173, -5307653019, -134960824, -115569], [-22361721730047140,
    -15374411455345, 3475496037750, 14459267114, 661307634, 540688], [-5854222162134, -3483446982122, -11531883234, -1302475344, -976692],
    [1165596351541, 916577197, 1289188460, 811206], [1463691940, -641377310, -246826], [128317382, -43233], [30423]], 751981⟩, ⟨[[1000000000000000000,
    0, -250023299366031, -474708797663, -5594208098, 24575231, 949204], [0, 500046598732063, 818507108391, 21744658474, -91578148, -5548504],
    [-250023299366031, -212887823792, -31914912458, 120605413, 13589940], [-130910486935, 20972681895, -57953638, -17858737], [-5208219808, -2472514,
    13283583], [6823661, -5303392], [887915]], 171493⟩)
def mE2 : TM.M × TM.M := (⟨[[0, 19434346910337898, -8273830281815, -2845869042613, 1562487364, 328841339, -309976], [-19434346910337899, 0,
    8529190762330, -3124974730, -1645278100, 1238927], [8273830281814, -8529190762332, 0, 3291627599, -1547928], [2845869042611, 3124974729,
    -3291627600, 0], [-1562487365, 1645278099, 1547927], [-328841340, -1238928], [309975]], 4544918⟩, ⟨[[1000000000000000000, 0, -188846919915680,
    160796487975, 37441798522, -23546236, -3369533], [0, 377693839831361, -160796487974, -149740540051, 70569078, 20219106], [-188846919915680,
    -160796487974, 224597483063, -47022838, -50550654], [160796487975, -149740540051, -47022838, 67402167], [37441798522, 70569078, -50550654],
    [-23546236, 20219106], [-3369533]], 238355⟩)

theorem ceE0 : checkAngles [xζ (xT 2) (xt 2)] [mE0] = true := by decide +kernel
theorem ceE1 : checkAngles [xz (xT 2) (xt 2)] [mE1] = true := by decide +kernel
theorem ceE2 : checkAngles [xθ (xT 2) (xt 2)] [mE2] = true := by decide +kernel
theorem ceE : checkAngles (aE (xT 2) (xt 2)) [mE0, mE1, mE2] = true := checkAngles_cons ceE0 (checkAngles_cons ceE1 ceE2)

def mF0 : TM.M × TM.M := (⟨[[0], [-22361721730047140], [-21228633617478], [1157645407171], [5307653018], [134960823], [115568]], 16724⟩,
    ⟨[[1000000000000000000], [0], [-250023299366031], [-474708797663], [-5594208098], [24575231], [949204]], 9027⟩)
def mF1 : TM.M × TM.M := (⟨[[0], [-22361721730047140], [-5854222162134], [1165596351541], [1463691940], [128317382], [30423]], 16277⟩,
    ⟨[[1000000000000000000], [0], [-250023299366031], [-130910486935], [-5208219808], [6823661], [887915]], 6932⟩)
def mF2 : TM.M × TM.M := (⟨[[0], [-19434346910337899], [8273830281814], [2845869042611], [-1562487365], [-328841340], [309975]], 45488⟩,
    ⟨[[1000000000000000000], [0], [-188846919915680], [160796487975], [37441798522], [-23546236], [-3369533]], 9096⟩)

theorem ceF0 : checkAngles [xζ (xT 2) (xT 2).neg] [mF0] = true := by decide +kernel
theorem ceF1 : checkAngles [xz (xT 2) (xT 2).neg] [mF1] = true := by decide +kernel
theorem ceF2 : checkAngles [xθ (xT 2) (xT 2).neg] [mF2] = true := by decide +kernel
theorem ceF : checkAngles (aE (xT 2) (xT 2).neg) [mF0, mF1, mF2] = true := checkAngles_cons ceF0 (checkAngles_cons ceF1 ceF2)

def mG0 : TM.M × TM.M := (⟨[[0, 22361721730047139, 5854222162133, -1165596351543, -1463691941, -128317383, -30424]], 16279⟩, ⟨[[1000000000000000000,
    0, -250023299366031, -130910486935, -5208219808, 6823661, 887915]], 6932⟩)
def mG1 : TM.M × TM.M := (⟨[[0, 22361721730047139, 21228633617477, -1157645407173, -5307653019, -134960824, -115569]], 16727⟩, ⟨[[1000000000000000000,
    0, -250023299366031, -474708797663, -5594208098, 24575231, 949204]], 9027⟩)
def mG2 : TM.M × TM.M := (⟨[[0, 19434346910337898, -8273830281815, -2845869042613, 1562487364, 328841339, -309976]], 45489⟩, ⟨[[1000000000000000000,
    0, -188846919915680, 160796487975, 37441798522, -23546236, -3369533]], 9096⟩)

theorem ceG0 : checkAngles [xζ xz0 (xT' 2)] [mG0] = true := by decide +kernel
theorem ceG1 : checkAngles [xz xz0 (xT' 2)] [mG1] = true := by decide +kernel
theorem ceG2 : checkAngles [xθ xz0 (xT' 2)] [mG2] = true := by decide +kernel
theorem ceG : checkAngles (aE xz0 (xT' 2)) [mG0, mG1, mG2] = true := checkAngles_cons ceG0 (checkAngles_cons ceG1 ceG2)

def mL0 : TM.M × TM.M := (⟨[[-89304834478240361, -8400206081440449, 3859140721496, 99069023524, -43096355, -346082, 187], [40168449267443757,
    -41494113973474, -1417728562558, 987158965, 8206896, -6345], [94770611222350, 6774416316303, -7700795981, -77979353, 84022], [-10808760413679,
    24786079929, 371710659, -567363], [-27830412396, -889358547, 2075514], [853886490, -3908699], [2954813]], 141392⟩, ⟨[[996004340622476451,
    -753188498372712, -35362032274880, 14689337708, 207561540, -99867, -476], [3601627590131518, 337779985079423, -249408502038, -3952334030, 2843960,
    13477], [-808003050140346, 1247684007219, 28270808004, -30021500, -159022], [-1869406481831, -90102141620, 149744686, 1005006], [107924691323,
    -355376514, -3592956], [320603870, 6890929], [-5533227]], 97004⟩)
def mL1 : TM.M × TM.M := (⟨[[-89304834478240361, 40168448301690695, 94770607730112, -10808991410952, -27831248720, 854074416, 2955248],
    [-8400205115687388, -41494109750925, 6773488082381, 24782899634, -888684837, -3907249], [3859139991184, -1416801077811, -7696740883, 370652230,
    2072670], [99300769970, 987295746, -77820016, -566408], [-43271616, 8252580, 84066], [-354311, -6389], [191]], 161508⟩, ⟨[[996004340622476451,
    3601627503539106, -808003011191919, -1869427172118, 107934028465, 320625897, -5535742], [-753188411780301, 337779937985927, 1247600746379,
    -90066688898, -355297901, 6882443], [-35362024129810, -249325329348, 28225590305, 149618712, -3576917], [14710116144, -3953860915, -30001328,
    999919], [209516261, 2850023, -159186], [-100765, 13714], [-499]], 99786⟩)
def mL2 : TM.M × TM.M := (⟨[[0, 455752979436434, -640341910010, 2311328201, 66502, -335, 0], [-455752979436435, 193925472, 16259501899, -133027,
    -1108, 4], [640147984536, -16259501901, 60, 4997, -11], [-2311328203, 132945, -4998, 0], [-66483, 1107, 10], [334, -5], [-1]], 6206⟩,
    ⟨[[1000000000000000000, 0, -103855389132, 291837734, -1263806, 1481, -1], [0, 207710778266, -291926115, -6335225, 10412, -36], [-103855389132,
    -291660969, 15198189, -11894, -93], [291749352, -6335473, -11885, 271], [-1263682, 10410, -93], [1480, -36], [-1]], 6025⟩)

theorem ceL0 : checkAngles [xn (xT 2) (xt 2)] [mL0] = true := by decide +kernel
theorem ceL1 : checkAngles [.add (xn (xT 2) (xt 2)) (xp (xT 2) (xt 2))] [mL1] = true := by decide +kernel
theorem ceL2 : checkAngles [xη (xT 2) (xt 2)] [mL2] = true := by decide +kernel
theorem ceL : checkAngles (aL (xT 2) (xt 2)) [mL0, mL1, mL2] = true := checkAngles_cons ceL0 (checkAngles_cons ceL1 ceL2)

def mP0 : TM.M × TM.M := (⟨[[-89304834478240361], [40168449267443757], [94770611222350], [-10808760413679], [-27830412396], [853886490], [2954813]],
    47580⟩, ⟨[[996004340622476451], [3601627590131518], [-808003050140346], [-1869406481831], [107924691323], [320603870], [-5533227]], 29830⟩)
def mP1 : TM.M × TM.M := (⟨[[-89304834478240361], [-8400205115687388], [3859139991184], [99300769970], [-43271616], [-354311], [191]], 24439⟩,
    ⟨[[996004340622476451], [-753188411780301], [-35362024129810], [14710116144], [209516261], [-100765], [-499]], 7810⟩)
def mP2 : TM.M × TM.M := (⟨[[0], [-455752979436435], [640147984536], [-2311328203], [-66483], [334], [-1]], 6100⟩, ⟨[[1000000000000000000], [0],
    [-103855389132], [291749352], [-1263682], [1480], [-1]], 6006⟩)

theorem ceP0 : checkAngles [xn (xT 2) (xT 2).neg] [mP0] = true := by decide +kernel
theorem ceP1 : checkAngles [.add (xn (xT 2) (xT 2).neg) (xp (xT 2) (xT 2).neg)] [mP1] = true := by decide +kernel
theorem ceP2 : checkAngles [xη (xT 2) (xT 2).neg] [mP2] = true := by decide +kernel
theorem ceP : checkAngles (aL (xT 2) (xT 2).neg) [mP0, mP1, mP2] = true := checkAngles_cons ceP0 (checkAngles_cons ceP1 ceP2)

def mQ0 : TM.M × TM.M := (⟨[[-89304834478240361, -8400206081440449, 3859140721496, 99069023524, -43096355, -346082, 187]], 7755⟩,
    ⟨[[996004340622476451, -753188498372712, -35362032274880, 14689337708, 207561540, -99867, -476]], 6179⟩)
def mQ1 : TM.M × TM.M := (⟨[[-89304834478240361, 40168448301690695, 94770607730112, -10808991410952, -27831248720, 854074416, 2955248]], 51108⟩,
    ⟨[[996004340622476451, 3601627503539106, -808003011191919, -1869427172118, 107934028465, 320625897, -5535742]], 30283⟩)
def mQ2 : TM.M × TM.M := (⟨[[0, 455752979436434, -640341910010, 2311328201, 66502, -335, 0]], 6099⟩, ⟨[[1000000000000000000, 0, -103855389132,
    291837734, -1263806, 1481, -1]], 6007⟩)

theorem ceQ0 : checkAngles [xn xz0 (xT' 2)] [mQ0] = true := by decide +kernel
theorem ceQ1 : checkAngles [.add (xn xz0 (xT' 2)) (xp xz0 (xT' 2))] [mQ1] = true := by decide +kernel
theorem ceQ2 : checkAngles [xη xz0 (xT' 2)] [mQ2] = true := by decide +kernel
theorem ceQ : checkAngles (aL xz0 (xT' 2)) [mQ0, mQ1, mQ2] = true := checkAngles_cons ceQ0 (checkAngles_cons ceQ1 ceQ2)

def mB0 : TM.M × TM.M := (⟨[[-89304834478240361, 40168449267443757, 94770611222350, -10808760413679, -27830412396, 853886490, 2954813],
    [-8400206081440449, -41494113973474, 6774416316303, 24786079929, -889358547, -3908699], [3859140721496, -1417728562558, -7700795981, 371710659,
    2075514], [99069023524, 987158965, -77979353, -567363], [-43096355, 8206896, 84022], [-346082, -6345], [187]], 141392⟩, ⟨[[996004340622476451,
    3601627590131518, -808003050140346, -1869406481831, 107924691323, 320603870, -5533227], [-753188498372712, 337779985079423, 1247684007219,
    -90102141620, -355376514, 6890929], [-35362032274880, -249408502038, 28270808004, 149744686, -3592956], [14689337708, -3952334030, -30021500,
    1005006], [207561540, 2843960, -159022], [-99867, 13477], [-476]], 97004⟩)
def mB1 : TM.M × TM.M := (⟨[[-89304834478240361, -8400205115687388, 3859139991184, 99300769970, -43271616, -354311, 191], [40168448301690695,
    -41494109750925, -1416801077811, 987295746, 8252580, -6389], [94770607730112, 6773488082381, -7696740883, -77820016, 84066], [-10808991410952,
    24782899634, 370652230, -566408], [-27831248720, -888684837, 2072670], [854074416, -3907249], [2955248]], 161508⟩, ⟨[[996004340622476451,
    -753188411780301, -35362024129810, 14710116144, 209516261, -100765, -499], [3601627503539106, 337779937985927, -249325329348, -3953860915,
    2850023, 13714], [-808003011191919, 1247600746379, 28225590305, -30001328, -159186], [-1869427172118, -90066688898, 149618712, 999919],
    [107934028465, -355297901, -3576917], [320625897, 6882443], [-5535742]], 99786⟩)
def mB2 : TM.M × TM.M := (⟨[[0, -455752979436435, 640147984536, -2311328203, -66483, 334, -1], [455752979436434, 193925472, -16259501901, 132945,
    1107, -5], [-640341910010, 16259501899, 60, -4998, 10], [2311328201, -133027, 4997, 0], [66502, -1108, -11], [-335, 4], [0]], 6206⟩,
    ⟨[[1000000000000000000, 0, -103855389132, 291749352, -1263682, 1480, -1], [0, 207710778266, -291660969, -6335473, 10410, -36], [-103855389132,
    -291926115, 15198189, -11885, -93], [291837734, -6335225, -11894, 271], [-1263806, 10412, -93], [1481, -36], [-1]], 6025⟩)

theorem ceB0 : checkAngles [xn (xT' 2) (xt 2).neg] [mB0] = true := by decide +kernel
theorem ceB1 : checkAngles [.add (xn (xT' 2) (xt 2).neg) (xp (xT' 2) (xt 2).neg)] [mB1] = true := by decide +kernel
theorem ceB2 : checkAngles [xη (xT' 2) (xt 2).neg] [mB2] = true := by decide +kernel
theorem ceB : checkAngles (aL (xT' 2) (xt 2).neg) [mB0, mB1, mB2] = true := checkAngles_cons ceB0 (checkAngles_cons ceB1 ceB2)

def mO0 : TM.M × TM.M := (⟨[[397777155931885835], [-416473595445183], [-51479132675], [64527168113], [12698504], [-6327], [-985]], 92877⟩,
    ⟨[[917482062069193908], [180563401908144], [-89973939908], [-27981612036], [29286425], [3621], [-2268]], 40612⟩)
def mO1 : TM.M × TM.M := (⟨[[397777155931885835, -416473595445183, -51479132675, 64527168113, 12698504, -6327, -985]], 92877⟩, ⟨[[917482062069193908,
    180563401908144, -89973939908, -27981612036, 29286425, 3621, -2268]], 40612⟩)

theorem ceO0 : checkAngles [xε (xT 2)] [mO0] = true := by decide +kernel
theorem ceO1 : checkAngles [xε (xT' 2)] [mO1] = true := by decide +kernel

def litE : List (TM.M × TM.M) := [mE0, mE1, mE2] ++ ([mF0, mF1, mF2] ++ [mG0, mG1, mG2])
def litL : List (TM.M × TM.M) := [mL0, mL1, mL2] ++ ([mP0, mP1, mP2] ++ [mQ0, mQ1, mQ2])
def litB : List (TM.M × TM.M) := [mL0, mL1, mL2] ++ [mB0, mB1, mB2]
def litR : List (TM.M × TM.M) := [mE0, mE1, mE2] ++ ([mL0, mL1, mL2] ++ [mO0, mO1])

theorem caE : checkAngles (angE 2) litE = true := checkAngles_append rfl ceE (checkAngles_append rfl ceF ceG)
theorem caL : checkAngles (angL 2) litL = true := checkAngles_append rfl ceL (checkAngles_append rfl ceP ceQ)
theorem caB : checkAngles (angB 2) litB = true := checkAngles_append rfl ceL ceB
theorem caR : checkAngles (angR 2) litR = true := checkAngles_append rfl ceE (checkAngles_append rfl ceL (checkAngles_cons ceO0 ceO1))

def kEb : ℤ := 10181076104
theorem kE : chk (σL litE) (fun v => xE 6 (xE 3 v)) (xE 0) kEb = true := by decide +kernel
def kLb : ℤ := 484813147
theorem kL : chk (σL litL) (fun v => xL 6 (xL 3 v)) (xL 0) kLb = true := by decide +kernel
def kBb : ℤ := 1212032869
theorem kB : chk (σL litB) (fun v => xL 3 (xL 0 v)) (fun v => v) kBb = true := by decide +kernel
def kRb : ℤ := 14544394434
theorem kR : chk (σL litR) xR (xE 0) kRb = true := by decide +kernel

end Verif.Props
