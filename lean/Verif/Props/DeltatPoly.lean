import Verif.Props.Deltat
import Mathlib.Tactic
/-
C147: the polynomials of package deltat against its table.
-/
namespace Verif.Props

open Verif.Go Verif.Model Verif.Model.Julian Verif.Model.Interp Verif.Spec Verif.Lemmas

/-! ### Polynomials with rational coefficients -/

/-- Value of a polynomial, constant term first. -/
noncomputable def evalQ (c : List ℚ) (x : ℝ) : ℝ := c.foldr (fun (a : ℚ) (r : ℝ) => (a : ℝ) + x * r) 0

def addP : List ℚ → List ℚ → List ℚ
  | [], q => q
  | p, [] => p
  | a :: p, b :: q => (a + b) :: addP p q

/-- Coefficients of c + (a + b x) p(x), the first coefficient of p multiplied by b carried over in k. -/
def mulLin (a b : ℚ) (k : ℚ) : List ℚ → List ℚ
  | [] => [k]
  | c :: p => (k + a * c) :: mulLin a b (b * c) p

/-- Coefficients of p(a + b x). -/
def compP (a b : ℚ) (p : List ℚ) : List ℚ := p.foldr (fun c q => mulLin a b c q) []

/-- Sum of the absolute values of the terms at r. -/
def absP (r : ℚ) (c : List ℚ) : ℚ := c.foldr (fun a s => |a| + r * s) 0

theorem evalQ_cons (a : ℚ) (p : List ℚ) (x : ℝ) : evalQ (a :: p) x = a + x * evalQ p x := rfl

theorem evalQ_add (p q : List ℚ) (x : ℝ) : evalQ (addP p q) x = evalQ p x + evalQ q x := by
  induction p generalizing q with
  | nil => simp [addP, evalQ]
  | cons a p ih =>
    cases q with
    | nil => simp [addP, evalQ]
    | cons b q => rw [addP, evalQ_cons, evalQ_cons, evalQ_cons, ih]; push_cast; ring

theorem evalQ_map (k : ℚ) (p : List ℚ) (x : ℝ) : evalQ (p.map (k * ·)) x = k * evalQ p x := by
  induction p with
  | nil => simp [evalQ]
  | cons a p ih => rw [List.map_cons, evalQ_cons, evalQ_cons, ih]; push_cast; ring

theorem evalQ_mulLin (a b k : ℚ) (p : List ℚ) (x : ℝ) : evalQ (mulLin a b k p) x = k + (a + b * x) * evalQ p x := by
  induction p generalizing k with
  | nil => simp [mulLin, evalQ]
  | cons c p ih => rw [mulLin, evalQ_cons, evalQ_cons, ih]; push_cast; ring

theorem evalQ_comp (a b : ℚ) (p : List ℚ) (x : ℝ) : evalQ (compP a b p) x = evalQ p (a + b * x) := by
  induction p with
  | nil => rfl
  | cons c p ih =>
    show evalQ (mulLin a b c (compP a b p)) x = _
    rw [evalQ_mulLin, ih, evalQ_cons]

theorem evalQ_le {r : ℚ} (p : List ℚ) {x : ℝ} (hx : |x| ≤ r) : |evalQ p x| ≤ absP r p := by
  have hr : (0 : ℝ) ≤ r := (abs_nonneg x).trans hx
  induction p with
  | nil => simp [evalQ, absP]
  | cons a p ih =>
    have e : ((absP r (a :: p) : ℚ) : ℝ) = |(a : ℝ)| + r * ((absP r p : ℚ) : ℝ) := by
      show (((|a| + r * absP r p : ℚ)) : ℝ) = _
      push_cast; rfl
    rw [evalQ_cons, e]
    refine (abs_add_le _ _).trans (add_le_add le_rfl ?_)
    rw [abs_mul]
    exact mul_le_mul hx ih (abs_nonneg _) hr

theorem horner_evalQ (c : List ℚ) (x : ℝ) : hornerR x (c.map fun q : ℚ => (q : ℝ)) = evalQ c x := by
  induction c with
  | nil => rfl
  | cons a p ih =>
    rw [evalQ_cons, ← ih]
    show hornerR x _ * x + (a : ℝ) = _
    ring

/-! ### The table and the polynomials over the rationals -/

def tableQ : List ℚ := [
    121.0, 112.0, 103.0, 95.0, 88.0, 82.0, 77.0, 72.0, 68.0, 63.0, 60.0, 56.0, 53.0, 51.0, 48.0, 46.0, 44.0, 42.0, 40.0, 38.0,
    35.0, 33.0, 31.0, 29.0, 26.0, 24.0, 22.0, 20.0, 18.0, 16.0, 14.0, 12.0, 11.0, 10.0, 9.0, 8.0, 7.0, 7.0, 7.0, 7.0, 7.0, 7.0,
    8.0, 8.0, 9.0, 9.0, 9.0, 9.0, 9.0, 10.0, 10.0, 10.0, 10.0, 10.0, 10.0, 10.0, 10.0, 11.0, 11.0, 11.0, 11.0, 11.0, 12.0, 12.0,
    12.0, 12.0, 13.0, 13.0, 13.0, 14.0, 14.0, 14.0, 14.0, 15.0, 15.0, 15.0, 15.0, 15.0, 16.0, 16.0, 16.0, 16.0, 16.0, 16.0, 16.0,
    16.0, 15.0, 15.0, 14.0, 13.0, 13.1, 12.5, 12.2, 12.0, 12.0, 12.0, 12.0, 12.0, 12.0, 11.9, 11.6, 11.0, 10.2, 9.2, 8.2, 7.1,
    6.2, 5.6, 5.4, 5.3, 5.4, 5.6, 5.9, 6.2, 6.5, 6.8, 7.1, 7.3, 7.5, 7.6, 7.7, 7.3, 6.2, 5.2, 2.7, 1.4, -1.2, -2.8, -3.8, -4.8,
    -5.5, -5.3, -5.6, -5.7, -5.9, -6.0, -6.3, -6.5, -6.2, -4.7, -2.8, -0.1, 2.6, 5.3, 7.7, 10.4, 13.3, 16.0, 18.2, 20.2, 21.1,
    22.4, 23.5, 23.8, 24.3, 24.0, 23.9, 23.9, 23.7, 24.0, 24.3, 25.3, 26.2, 27.3, 28.2, 29.1, 30.0, 30.7, 31.4, 32.2, 33.1, 34.0,
    35.0, 36.5, 38.3, 40.2, 42.2, 44.5, 46.5, 48.5, 50.5, 52.2, 53.8, 54.9, 55.8, 56.9, 58.3, 60.0, 61.6, 63.0, 63.8, 64.3, 64.6,
    64.8, 65.5, 66.1]

set_option maxRecDepth 100000 in
set_option maxHeartbeats 4000000 in
theorem tableQ_eq : Deltat.table10A = tableQ.map fun q : ℚ => (q : ℝ) := by
  unfold Deltat.table10A tableQ
  simp only [List.map_cons, List.map_nil]
  norm_num

def poly1Q : List ℚ := [-1.02, 91.02, 265.90, -839.16, -1545.20, 3603.62, 4385.98, -6993.23, -6090.04, 6298.12, 4102.86, -2137.64, -1081.51]
def poly2Q : List ℚ := [-2.50, 228.95, 5218.61, 56282.84, 324011.78, 1061660.75, 2087298.89, 2513807.78, 1818961.41, 727058.63, 123563.95]
def poly3Q : List ℚ := [-2.44, 87.24, 815.20, -2637.80, -18756.33, 124906.15, -303191.19, 372919.88, -232424.66, 58353.42]

theorem poly1_eq (jde : ℝ) : Deltat.Poly1800to1997 jde = evalQ poly1Q (Deltat.jc1900 jde) := by
  rw [← horner_evalQ]; unfold Deltat.Poly1800to1997 poly1Q
  simp only [List.map_cons, List.map_nil]; norm_num

theorem poly2_eq (jde : ℝ) : Deltat.Poly1800to1899 jde = evalQ poly2Q (Deltat.jc1900 jde) := by
  rw [← horner_evalQ]; unfold Deltat.Poly1800to1899 poly2Q
  simp only [List.map_cons, List.map_nil]; norm_num

theorem poly3_eq (jde : ℝ) : Deltat.Poly1900to1997 jde = evalQ poly3Q (Deltat.jc1900 jde) := by
  rw [← horner_evalQ]; unfold Deltat.Poly1900to1997 poly3Q
  simp only [List.map_cons, List.map_nil]; norm_num

/-- The year, counted uniformly in mean Gregorian years. -/
noncomputable def meanYear (jde : ℝ) : ℝ := 2000 + (jde - 2451544.5) / 365.2425

/-- C147.  The fractional year used to enter the table is within 0.01 of the uniform count, at every instant of the Gregorian calendar. -/
theorem C147_year (jde : ℝ) (h : 2299160.5 ≤ jde) : |Deltat.yearOf jde - meanYear jde| ≤ 0.01 := by
  obtain ⟨y, m, d, hj, hv, he⟩ := C04_jd_date_jd jde h
  obtain ⟨v1, v2, v3, v4⟩ := hv
  obtain ⟨n, hn⟩ : ∃ n : ℤ, n = trunc (d + 0.5) := ⟨_, rfl⟩
  have hn1 : (n : ℝ) ≤ d + 0.5 := by rw [hn, trunc_nonneg (by linarith)]; exact Int.floor_le _
  have hn2 : d + 0.5 < n + 1 := by rw [hn, trunc_nonneg (by linarith)]; exact Int.lt_floor_add_one _
  have e8 := C08_dayOfYearGregorian y m n v1 v2
  rw [C02_gregorian_dayCount _ _ _ v1 v2] at e8 he
  rw [C02_gregorian_dayCount _ _ _ (by norm_num) (by norm_num)] at e8
  have hY : Deltat.yearOf jde = y + (DayOfYearGregorian y m n : ℝ) / (if LeapYearGregorian y then 365 + 1 else 365) := by
    unfold Deltat.yearOf
    rw [hj, hn]
    rfl
  obtain ⟨N, hN⟩ : ∃ N : ℝ, N = (DayOfYearGregorian y m n : ℝ) := ⟨_, rfl⟩
  obtain ⟨D, hD⟩ : ∃ D : ℝ, D = ((dayCount LeapG y m 1 - dayCount LeapG y 1 1 : ℤ) : ℝ) + d := ⟨_, rfl⟩
  have hND : N = D + (n - d) := by rw [hN, hD, e8]; push_cast; ring
  have hm : 0 ≤ dayCount LeapG y m 1 - dayCount LeapG y 1 1 ∧ dayCount LeapG y m 1 - dayCount LeapG y 1 1 ≤ 335 := by
    unfold dayCount
    have : m = 1 ∨ m = 2 ∨ m = 3 ∨ m = 4 ∨ m = 5 ∨ m = 6 ∨ m = 7 ∨ m = 8 ∨ m = 9 ∨ m = 10 ∨ m = 11 ∨ m = 12 := by omega
    rw [monthsLen_eq _ m v1 v2, monthsLen_eq _ 1 (by norm_num) (by norm_num)]
    rcases this with rfl | rfl | rfl | rfl | rfl | rfl | rfl | rfl | rfl | rfl | rfl | rfl <;>
      by_cases hl : LeapG y <;> simp [hl]
  have hd32 : d < 32 := by
    have : monthLen (LeapG y) m ≤ 31 := by unfold monthLen; split_ifs <;> norm_num
    have : (monthLen (LeapG y) m : ℝ) ≤ 31 := by exact_mod_cast this
    linarith
  have D0 : 0 ≤ D := by
    rw [hD]; have : (0 : ℝ) ≤ ((dayCount LeapG y m 1 - dayCount LeapG y 1 1 : ℤ) : ℝ) := by exact_mod_cast hm.1
    linarith
  have D1 : D ≤ 367 := by
    rw [hD]; have : ((dayCount LeapG y m 1 - dayCount LeapG y 1 1 : ℤ) : ℝ) ≤ 335 := by exact_mod_cast hm.2
    linarith
  -- the drift of the calendar
  obtain ⟨J, hJ⟩ : ∃ J : ℤ, J = dayCount LeapG y 1 1 - dayCount LeapG 2000 1 1 := ⟨_, rfl⟩
  have hJ2 : J = 365 * y + (y + 3) / 4 - (y + 99) / 100 + (y + 399) / 400 - 730485 := by
    rw [hJ, dayCount, dayCount, yearStart_G, yearStart_G]; simp [monthsLen]
  have dr1 : 400 * J ≤ 146097 * (y - 2000) + 591 := by omega
  have dr2 : 146097 * (y - 2000) - 288 ≤ 400 * J := by omega
  have dr1' : 400 * (J : ℝ) ≤ 146097 * ((y : ℝ) - 2000) + 591 := by exact_mod_cast dr1
  have dr2' : 146097 * ((y : ℝ) - 2000) - 288 ≤ 400 * (J : ℝ) := by exact_mod_cast dr2
  have hje : jde = J + (D - 1) + 2451544.5 := by rw [← he, hJ, hD]; push_cast; ring
  have hT : meanYear jde = 2000 + (J + (D - 1)) / 365.2425 := by unfold meanYear; rw [hje]; congr 2; ring
  rw [hY, ← hN, hT, abs_le]
  have hfrac : |N / (if LeapYearGregorian y then (365 : ℝ) + 1 else 365) - D / 365.2425| ≤ 0.0037 := by
    split_ifs
    · rw [abs_le]; norm_num; constructor <;> linarith
    · rw [abs_le]; norm_num; constructor <;> linarith
  rw [abs_le] at hfrac
  obtain ⟨q1, q2⟩ := hfrac
  generalize N / (if LeapYearGregorian y then (365 : ℝ) + 1 else 365) = X at *
  norm_num at q1 q2 ⊢
  constructor <;> linarith

/-- The interpolation of the table around entry i, as a polynomial of the years from t0 = 1620 + 2 i + w. -/
def segQ (i : ℕ) (w : ℚ) : List ℚ :=
  let a := tableQ.getD i 0 - tableQ.getD (i - 1) 0
  let b := tableQ.getD (i + 1) 0 - tableQ.getD i 0
  [tableQ.getD i 0 + w * (a + b) / 4 + w * w * (b - a) / 8, (a + b) / 4 + w * (b - a) / 4, (b - a) / 8]

/-- Slack for the difference of the two counts of years. -/
def slackQ (i : ℕ) : ℚ :=
  let a := tableQ.getD i 0 - tableQ.getD (i - 1) 0
  let b := tableQ.getD (i + 1) 0 - tableQ.getD i 0
  (|a + b| + 1.01 * |b - a|) / 400

def diffQ (P : List ℚ) (i : ℕ) (w : ℚ) : List ℚ :=
  addP (compP ((36524.5 + 365.2425 * (2 * i + w - 380)) / 36525) (365.2425 / 36525) P) ((segQ i w).map (-1 * ·))

/-- The test of one cell: all instants within 0.2525 years of 1620 + 2 i + w. -/
def cellOK (P : List ℚ) (B : ℚ) (i : ℕ) (w : ℚ) : Bool := absP 0.2525 (diffQ P i w) + slackQ i ≤ B

/-- The test at one entry of the table: all instants within 0.01 years of 1620 + 2 i. -/
def entryOK (P : List ℚ) (B : ℚ) (i : ℕ) : Bool :=
  absP 0.01 (addP (compP ((36524.5 + 365.2425 * (2 * i - 380)) / 36525) (365.2425 / 36525) P) [-tableQ.getD i 0]) ≤ B

/-- The test of all instants within 1.01 years of 1620 + 2 i at once. -/
def wideOK (P : List ℚ) (B : ℚ) (i : ℕ) : Bool := absP 1.01 (diffQ P i 0) + slackQ i ≤ B

def cells (P : List ℚ) (B : ℚ) (i : ℕ) : Bool :=
  wideOK P B i || cellOK P B i (-0.7575) && cellOK P B i (-0.2525) && cellOK P B i 0.2525 && cellOK P B i 0.7575


set_option maxRecDepth 100000 in
theorem cells1 : ((List.range 98).all fun k => cells poly1Q 2.31 (91 + k)) = true := by decide +kernel

theorem cells1_ends : (cellOK poly1Q 2.31 90 0.2525 && cellOK poly1Q 2.31 90 0.7575 && cellOK poly1Q 2.31 189 (-0.7575) &&
    cellOK poly1Q 2.31 189 (-0.2525)) = true := by decide +kernel

theorem cells2 : ((List.range 49).all fun k => cells poly2Q 0.95 (91 + k)) = true := by decide +kernel

theorem cells2_ends : (cellOK poly2Q 0.95 90 0.2525 && cellOK poly2Q 0.95 90 0.7575 && cellOK poly2Q 0.95 140 (-0.7575) &&
    cellOK poly2Q 0.95 140 (-0.2525)) = true := by decide +kernel

theorem cells3 : ((List.range 48).all fun k => cells poly3Q 1.02 (141 + k)) = true := by decide +kernel

theorem cells3_ends : (cellOK poly3Q 1.02 140 0.2525 && cellOK poly3Q 1.02 140 0.7575 && cellOK poly3Q 1.02 189 (-0.7575) &&
    cellOK poly3Q 1.02 189 (-0.2525)) = true := by decide +kernel

theorem entries1 : ((List.range 100).all fun k => entryOK poly1Q 2.3 (90 + k)) = true := by decide +kernel

theorem entries2 : ((List.range 51).all fun k => entryOK poly2Q 0.9 (90 + k)) = true := by decide +kernel

theorem entries3 : ((List.range 49).all fun k => entryOK poly3Q 0.9 (140 + k)) = true := by decide +kernel

theorem jc_meanYear (jde : ℝ) (i : ℕ) (w : ℚ) :
    Deltat.jc1900 jde = (((36524.5 + 365.2425 * (2 * i + w - 380)) / 36525 : ℚ) : ℝ) +
      ((365.2425 / 36525 : ℚ) : ℝ) * (meanYear jde - (1620 + 2 * i + w)) := by
  unfold Deltat.jc1900 meanYear
  push_cast
  ring

theorem tableQ_length : tableQ.length = 196 := by decide +kernel

theorem table_get (i : ℕ) (h : i < Deltat.table10A.length) : Deltat.table10A[i] = ((tableQ.getD i 0 : ℚ) : ℝ) := by
  have h2 : i < tableQ.length := by rw [tableQ_length]; rw [table10A_length] at h; exact h
  rw [List.getD_eq_getElem _ _ h2]
  simp only [tableQ_eq, List.getElem_map]

/-- One cell of the comparison. -/
theorem cell_spec {P : List ℚ} {B : ℚ} {i : ℕ} {w r : ℚ} (h : absP r (diffQ P i w) + slackQ i ≤ B) (jde : ℝ)
    (hv : |meanYear jde - (1620 + 2 * i + w)| ≤ r) {n : ℝ} (hn : |2 * n - (meanYear jde - (1620 + 2 * i))| ≤ 0.01)
    (hn1 : |n| ≤ 0.5) :
    |evalQ P (Deltat.jc1900 jde) - ((tableQ.getD i 0 : ℚ) + n * 0.5 * (((tableQ.getD i 0 - tableQ.getD (i - 1) 0 : ℚ) : ℝ) +
      ((tableQ.getD (i + 1) 0 - tableQ.getD i 0 : ℚ) : ℝ) + n * (((tableQ.getD (i + 1) 0 - tableQ.getD i 0 : ℚ) : ℝ) -
      ((tableQ.getD i 0 - tableQ.getD (i - 1) 0 : ℚ) : ℝ))))| ≤ B := by
  have h' : ((absP r (diffQ P i w) : ℚ) : ℝ) + (slackQ i : ℝ) ≤ B := by exact_mod_cast h
  obtain ⟨v, hvd⟩ : ∃ v, v = meanYear jde - (1620 + 2 * i + w) := ⟨_, rfl⟩
  have e := evalQ_le (r := r) (diffQ P i w) (x := v) (by rw [hvd]; exact hv)
  unfold diffQ at e h'
  rw [evalQ_add, evalQ_comp, evalQ_map, hvd, ← jc_meanYear, ← hvd] at e
  unfold segQ at e h'
  unfold slackQ at h'
  dsimp only at e h'
  generalize tableQ.getD i 0 - tableQ.getD (i - 1) 0 = a at *
  generalize tableQ.getD (i + 1) 0 - tableQ.getD i 0 = b at *
  generalize tableQ.getD i 0 = y at *
  simp only [evalQ_cons] at e
  rw [show evalQ [] v = 0 from rfl] at e
  generalize ((absP r _ : ℚ) : ℝ) = X at *
  generalize evalQ P (Deltat.jc1900 jde) = p at *
  push_cast at e h' ⊢
  obtain ⟨a', ha⟩ : ∃ a' : ℝ, a' = a := ⟨_, rfl⟩
  obtain ⟨b', hb⟩ : ∃ b' : ℝ, b' = b := ⟨_, rfl⟩
  rw [← ha, ← hb] at e h' ⊢
  obtain ⟨δ, hδ⟩ : ∃ δ, δ = 2 * n - (w + v) := ⟨_, rfl⟩
  have hδ1 : |δ| ≤ 0.01 := by rw [hδ, hvd]; convert hn using 2; ring
  have hw : (w : ℝ) + v = 2 * n - δ := by rw [hδ]; ring
  have key : p - (y + n * 0.5 * (a' + b' + n * (b' - a'))) =
      (p + -1 * (y + w * (a' + b') / 4 + w * w * (b' - a') / 8 + v * ((a' + b') / 4 + w * (b' - a') / 4 + v * ((b' - a') / 8 + v * 0)))) +
      (-(δ / 4 * (a' + b')) + -(δ / 8 * (4 * n - δ) * (b' - a'))) := by
    have : (v : ℝ) = 2 * n - δ - w := by linarith
    rw [this]; ring
  rw [key]
  refine (abs_add_le _ _).trans ?_
  have s1 : |-(δ / 4 * (a' + b')) + -(δ / 8 * (4 * n - δ) * (b' - a'))| ≤ (|a' + b'| + 1.01 * |b' - a'|) / 400 := by
    refine (abs_add_le _ _).trans ?_
    rw [abs_neg, abs_neg, abs_mul, abs_mul, abs_mul, abs_div, abs_div]
    have t1 : |δ| / |(4 : ℝ)| ≤ 0.01 / 4 := by rw [abs_of_pos (by norm_num : (0 : ℝ) < 4)]; linarith
    have t2 : |δ| / |(8 : ℝ)| ≤ 0.01 / 8 := by rw [abs_of_pos (by norm_num : (0 : ℝ) < 8)]; linarith
    have t3 : |4 * n - δ| ≤ 2.01 := by
      rw [abs_le] at hδ1 hn1 ⊢; constructor <;> linarith [hδ1.1, hδ1.2, hn1.1, hn1.2]
    have u1 := mul_le_mul_of_nonneg_right t1 (abs_nonneg (a' + b'))
    have u2 := mul_le_mul_of_nonneg_right (mul_le_mul t2 t3 (abs_nonneg _) (by norm_num)) (abs_nonneg (b' - a'))
    have u3 := abs_nonneg (b' - a')
    norm_num at u1 u2 ⊢
    linarith
  norm_num at e s1 h' ⊢
  linarith

/-- The comparison over the years [1620 + 2 lo, 1620 + 2 hi]. -/
theorem poly_table {P : List ℚ} {B : ℚ} {lo hi : ℕ} (hlo : 2 ≤ lo) (hhi : hi ≤ 193) (jde : ℝ) (hj : 2299160.5 ≤ jde)
    (hin : ∀ i, lo < i → i < hi → cells P B i = true)
    (hl1 : cellOK P B lo 0.2525 = true) (hl2 : cellOK P B lo 0.7575 = true) (hr1 : cellOK P B hi (-0.7575) = true)
    (hr2 : cellOK P B hi (-0.2525) = true) (h0 : 1620 + 2 * lo ≤ meanYear jde) (h1 : meanYear jde ≤ 1620 + 2 * hi) :
    ∃ v, Deltat.Interp10A jde = some v ∧ |evalQ P (Deltat.jc1900 jde) - v| ≤ B := by
  have hy := C147_year jde hj
  obtain ⟨t, ht⟩ : ∃ t, t = meanYear jde := ⟨_, rfl⟩
  obtain ⟨x, hx⟩ : ∃ x, x = Deltat.yearOf jde := ⟨_, rfl⟩
  obtain ⟨d, k, hk, hd, hN, hnear, -⟩ := C29_selects x Deltat.tableYear1 Deltat.tableYearN Deltat.table10A
    (by rw [table10A_length]; norm_num) (by unfold Deltat.tableYear1 Deltat.tableYearN; norm_num)
  have hstep : (Deltat.tableYearN - Deltat.tableYear1) / ((Deltat.table10A.length : ℝ) - 1) = 2 := by
    rw [table10A_length]; unfold Deltat.tableYearN Deltat.tableYear1; norm_num
  rw [hstep] at hN hnear
  have hI : Deltat.Interp10A jde = some (d.InterpolateX x) := by
    unfold Deltat.Interp10A
    dsimp only
    rw [← hx, hd]
  refine ⟨_, hI, ?_⟩
  rw [← ht] at h0 h1 hy
  rw [← hx, abs_le] at hy
  have hlo' : (2 : ℝ) ≤ lo := by exact_mod_cast hlo
  have hhi' : (hi : ℝ) ≤ 193 := by exact_mod_cast hhi
  -- the middle entry is the nearest
  have hk' : k < 194 := by rw [table10A_length] at hk; omega
  unfold Deltat.tableYear1 at hnear hN
  have hmid : |x - (1620 + (k + 1) * 2)| ≤ 1 := by
    obtain ⟨m, hm⟩ : ∃ m : ℤ, m = round ((x - 1620) / 2) := ⟨_, rfl⟩
    have hr := abs_sub_round ((x - 1620) / 2)
    rw [← hm, abs_le] at hr
    have m0 : (0 : ℝ) < m := by linarith [hr.1, hr.2]
    have m1 : (m : ℝ) < 195 := by linarith [hr.1, hr.2]
    have m0' : 0 < m := by exact_mod_cast m0
    have m1' : m < 195 := by exact_mod_cast m1
    have := hnear m.toNat (by omega) (by rw [table10A_length]; omega)
    have hc : ((m.toNat : ℕ) : ℝ) = m := by
      have : ((m.toNat : ℕ) : ℤ) = m := Int.toNat_of_nonneg m0'.le
      exact_mod_cast this
    rw [hc] at this
    refine this.trans ?_
    rw [abs_le]; constructor <;> linarith [hr.1, hr.2]
  obtain ⟨i, hi'⟩ : ∃ i, i = k + 1 := ⟨_, rfl⟩
  have hic : (i : ℝ) = k + 1 := by rw [hi']; push_cast; ring
  rw [← hic] at hmid
  obtain ⟨n, hn⟩ : ∃ n, n = (x - (1620 + 2 * i)) / 2 := ⟨_, rfl⟩
  have hmid' := abs_le.1 hmid
  have hval : d.InterpolateX x = (tableQ.getD i 0 : ℚ) + n * 0.5 * (((tableQ.getD i 0 - tableQ.getD (i - 1) 0 : ℚ) : ℝ) +
      ((tableQ.getD (i + 1) 0 - tableQ.getD i 0 : ℚ) : ℝ) + n * (((tableQ.getD (i + 1) 0 - tableQ.getD i 0 : ℚ) : ℝ) -
      ((tableQ.getD i 0 - tableQ.getD (i - 1) 0 : ℚ) : ℝ))) := by
    unfold NewLen3 at hN
    dsimp only at hN
    rw [if_neg (by intro h; linarith : ¬ (1620 + ((k : ℝ) + 2) * 2 = 1620 + k * 2))] at hN
    rw [Except.ok.injEq] at hN
    rw [← hN]
    unfold Len3.InterpolateX Len3.InterpolateN Len3.y1
    dsimp only
    rw [table_get, table_get, table_get, hi']
    simp only [List.getD_cons_succ, List.getD_cons_zero, Nat.add_sub_cancel]
    have hnn : (2 * x - (1620 + (k + 2) * 2 + (1620 + k * 2))) / (1620 + ((k : ℝ) + 2) * 2 - (1620 + k * 2)) = n := by
      rw [hn, hic, show (1620 + ((k : ℝ) + 2) * 2 - (1620 + k * 2)) = 4 by ring]; ring
    rw [hnn]
    push_cast
    rfl
  have hn1 : |n| ≤ 0.5 := by rw [hn, abs_le]; constructor <;> linarith [hmid'.1, hmid'.2]
  have hn2 : |2 * n - (t - (1620 + 2 * i))| ≤ 0.01 := by
    rw [hn, abs_le]; constructor <;> linarith [hy.1, hy.2]
  rw [ht] at hn2
  have use : ∀ w : ℚ, cellOK P B i w = true → |t - (1620 + 2 * i + w)| ≤ 0.2525 →
      |evalQ P (Deltat.jc1900 jde) - d.InterpolateX x| ≤ B := fun w hw hv => by
    rw [hval]
    unfold cellOK at hw
    rw [decide_eq_true_iff] at hw
    exact cell_spec (P := P) (B := B) hw jde (by rw [← ht]; push_cast; exact hv) hn2 hn1
  obtain ⟨τ, hτ⟩ : ∃ τ, τ = t - (1620 + 2 * i) := ⟨_, rfl⟩
  have τ1 : -1.01 ≤ τ := by rw [hτ]; norm_num at hy ⊢; linarith [hy.1, hy.2, hmid'.1]
  have τ2 : τ ≤ 1.01 := by rw [hτ]; norm_num at hy ⊢; linarith [hy.1, hy.2, hmid'.2]
  have goN : τ ≤ 0 → cellOK P B i (-0.7575) = true → cellOK P B i (-0.2525) = true →
      |evalQ P (Deltat.jc1900 jde) - d.InterpolateX x| ≤ B := fun h a b => by
    rcases le_total τ (-0.505) with hc | hc
    · exact use _ a (by rw [abs_le]; push_cast; norm_num at τ1 hc ⊢; constructor <;> linarith)
    · exact use _ b (by rw [abs_le]; push_cast; norm_num at hc ⊢; constructor <;> linarith)
  have goP : 0 ≤ τ → cellOK P B i 0.2525 = true → cellOK P B i 0.7575 = true →
      |evalQ P (Deltat.jc1900 jde) - d.InterpolateX x| ≤ B := fun h a b => by
    rcases le_total τ 0.505 with hc | hc
    · exact use _ a (by rw [abs_le]; push_cast; norm_num at hc ⊢; constructor <;> linarith)
    · exact use _ b (by rw [abs_le]; push_cast; norm_num at τ2 hc ⊢; constructor <;> linarith)
  have i0 : lo ≤ i := by
    by_contra h; push Not at h
    have : (i : ℝ) + 1 ≤ lo := by exact_mod_cast h
    linarith
  have i1 : i ≤ hi := by
    by_contra h; push Not at h
    have : (hi : ℝ) + 1 ≤ i := by exact_mod_cast h
    linarith
  rcases eq_or_lt_of_le i0 with e0 | e0
  · rw [e0] at hl1 hl2 h0
    exact goP (by rw [hτ]; linarith) hl1 hl2
  rcases eq_or_lt_of_le i1 with e1 | e1
  · rw [← e1] at hr1 hr2 h1
    exact goN (by rw [hτ]; linarith) hr1 hr2
  have hc := hin i e0 e1
  unfold cells at hc
  simp only [Bool.and_eq_true, Bool.or_eq_true] at hc
  rcases hc with hc | hc
  · unfold wideOK at hc
    rw [decide_eq_true_iff] at hc
    rw [hval]
    refine cell_spec (P := P) (B := B) hc jde ?_ hn2 hn1
    rw [← ht, abs_le]
    rw [hτ] at τ1 τ2
    push_cast
    norm_num at τ1 τ2 ⊢
    constructor <;> linarith
  rcases le_total τ 0 with h | h
  · exact goN h hc.1.1.1 hc.1.1.2
  · exact goP h hc.1.2 hc.2

/-- C147.  `Poly1800to1997` is within 2.31 s of the interpolated table at every instant from 1800 to the end of 1997. -/
theorem C147_1800to1997 (jde : ℝ) (h0 : 2378496.5 ≤ jde) (h1 : jde ≤ 2450814) :
    ∃ v, Deltat.Interp10A jde = some v ∧ |Deltat.Poly1800to1997 jde - v| ≤ 2.31 := by
  rw [poly1_eq]
  have hc := cells1_ends
  simp only [Bool.and_eq_true] at hc
  have ha := List.all_eq_true.1 cells1
  have := poly_table (P := poly1Q) (B := 2.31) (lo := 90) (hi := 189) (by norm_num) (by norm_num) jde (by linarith)
    (fun i a b => by
      have := ha (i - 91) (List.mem_range.2 (by omega))
      rwa [show 91 + (i - 91) = i by omega] at this)
    hc.1.1.1 hc.1.1.2 hc.1.2 hc.2
    (by unfold meanYear; norm_num at h0 ⊢; linarith) (by unfold meanYear; norm_num at h1 ⊢; linarith)
  convert this using 4
  norm_num

/-- C147.  `Poly1800to1899` is within 0.95 s of the interpolated table at every instant from 1800 to the end of 1899. -/
theorem C147_1800to1899 (jde : ℝ) (h0 : 2378496.5 ≤ jde) (h1 : jde ≤ 2415020) :
    ∃ v, Deltat.Interp10A jde = some v ∧ |Deltat.Poly1800to1899 jde - v| ≤ 0.95 := by
  rw [poly2_eq]
  have hc := cells2_ends
  simp only [Bool.and_eq_true] at hc
  have ha := List.all_eq_true.1 cells2
  have := poly_table (P := poly2Q) (B := 0.95) (lo := 90) (hi := 140) (by norm_num) (by norm_num) jde (by linarith)
    (fun i a b => by
      have := ha (i - 91) (List.mem_range.2 (by omega))
      rwa [show 91 + (i - 91) = i by omega] at this)
    hc.1.1.1 hc.1.1.2 hc.1.2 hc.2
    (by unfold meanYear; norm_num at h0 ⊢; linarith) (by unfold meanYear; norm_num at h1 ⊢; linarith)
  convert this using 4
  norm_num

/-- C147.  `Poly1900to1997` is within 1.02 s of the interpolated table at every instant from 1900 to the end of 1997. -/
theorem C147_1900to1997 (jde : ℝ) (h0 : 2415020.5 ≤ jde) (h1 : jde ≤ 2450814) :
    ∃ v, Deltat.Interp10A jde = some v ∧ |Deltat.Poly1900to1997 jde - v| ≤ 1.02 := by
  rw [poly3_eq]
  have hc := cells3_ends
  simp only [Bool.and_eq_true] at hc
  have ha := List.all_eq_true.1 cells3
  have := poly_table (P := poly3Q) (B := 1.02) (lo := 140) (hi := 189) (by norm_num) (by norm_num) jde (by linarith)
    (fun i a b => by
      have := ha (i - 141) (List.mem_range.2 (by omega))
      rwa [show 141 + (i - 141) = i by omega] at this)
    hc.1.1.1 hc.1.1.2 hc.1.2 hc.2
    (by unfold meanYear; norm_num at h0 ⊢; linarith) (by unfold meanYear; norm_num at h1 ⊢; linarith)
  convert this using 4
  norm_num

theorem entry_spec {P : List ℚ} {B : ℚ} {i : ℕ} (h : entryOK P B i = true) (d : ℝ) (h0 : 31 ≤ d) (h1 : d < 31.5) :
    |evalQ P (Deltat.jc1900 (CalendarGregorianToJD (1619 + 2 * i) 12 d)) - (tableQ.getD i 0 : ℚ)| ≤ B := by
  have hm : monthLen (LeapG (1619 + 2 * i)) 12 = 31 := by simp [monthLen]
  obtain ⟨jde, hjd⟩ : ∃ jde, jde = CalendarGregorianToJD (1619 + 2 * i) 12 d := ⟨_, rfl⟩
  have hj : 2299160.5 ≤ jde := by
    rw [hjd, C02_gregorian_dayCount _ _ _ (by norm_num) (by norm_num)]
    have : (-152000 : ℤ) ≤ dayCount LeapG (1619 + 2 * i) 12 1 - dayCount LeapG 2000 1 1 := by
      rw [dayCount, dayCount, yearStart_G, yearStart_G, monthsLen_eq _ 12 (by norm_num) (by norm_num)]
      by_cases hl : LeapG (1619 + 2 * i) <;> simp [hl, monthsLen] <;> omega
    have : ((-152000 : ℤ) : ℝ) ≤ ((dayCount LeapG (1619 + 2 * i) 12 1 - dayCount LeapG 2000 1 1 : ℤ) : ℝ) := by exact_mod_cast this
    norm_num at this ⊢; linarith
  have hy := C147_year jde hj
  rw [hjd, yearOf_newYear _ d (by omega) h0 h1, ← hjd] at hy
  unfold entryOK at h
  rw [decide_eq_true_iff] at h
  have h' : ((absP 0.01 (addP (compP ((36524.5 + 365.2425 * (2 * i - 380)) / 36525) (365.2425 / 36525) P) [-tableQ.getD i 0]) : ℚ) : ℝ) ≤ B := by
    exact_mod_cast h
  have e := evalQ_le (r := 0.01) (addP (compP ((36524.5 + 365.2425 * (2 * i - 380)) / 36525) (365.2425 / 36525) P) [-tableQ.getD i 0])
    (x := meanYear jde - (1620 + 2 * i)) (by
      rw [abs_sub_comm] at hy
      push_cast at hy ⊢
      convert hy using 1
      congr 1; ring)
  have hjc := jc_meanYear jde i 0
  rw [evalQ_add, evalQ_comp, evalQ_cons] at e
  simp only [add_zero, Rat.cast_zero] at hjc
  rw [← hjc, show ∀ x : ℝ, evalQ [] x = 0 from fun x => rfl, mul_zero, add_zero] at e
  rw [← hjd]
  push_cast at e
  rw [sub_eq_add_neg]
  exact e.trans h'

/-- C147.  At the tabulated instants the polynomials have the documented accuracy. -/
theorem C147_documented (i : ℕ) (d : ℝ) (h0 : 31 ≤ d) (h1 : d < 31.5) (hi : i < Deltat.table10A.length) :
    let jde := CalendarGregorianToJD (1619 + 2 * i) 12 d
    Deltat.Interp10A jde = some Deltat.table10A[i] ∧
    (90 ≤ i → i ≤ 189 → |Deltat.Poly1800to1997 jde - Deltat.table10A[i]| ≤ 2.3) ∧
    (90 ≤ i → i ≤ 140 → |Deltat.Poly1800to1899 jde - Deltat.table10A[i]| ≤ 0.9) ∧
    (140 ≤ i → i ≤ 188 → |Deltat.Poly1900to1997 jde - Deltat.table10A[i]| ≤ 0.9) := by
  intro jde
  refine ⟨C77_tabulated i hi d h0 h1, fun a b => ?_, fun a b => ?_, fun a b => ?_⟩
  · have := List.all_eq_true.1 entries1 (i - 90) (List.mem_range.2 (by omega))
    rw [show 90 + (i - 90) = i by omega] at this
    have := entry_spec this d h0 h1
    rw [poly1_eq, table_get]
    convert this using 1
    norm_num
  · have := List.all_eq_true.1 entries2 (i - 90) (List.mem_range.2 (by omega))
    rw [show 90 + (i - 90) = i by omega] at this
    have := entry_spec this d h0 h1
    rw [poly2_eq, table_get]
    convert this using 1
    norm_num
  · have := List.all_eq_true.1 entries3 (i - 140) (List.mem_range.2 (by omega))
    rw [show 140 + (i - 140) = i by omega] at this
    have := entry_spec this d h0 h1
    rw [poly3_eq, table_get]
    convert this using 1
    norm_num

/-- C147.  The pieces fit: at 948 the two polynomials of the middle ages agree to 0.21 s, at the beginning of 2000 the polynomial of the
future agrees with the table to 1.3 s, and it has no step in 2100. -/
theorem C147_seams (d : ℝ) (h0 : 31 ≤ d) (h1 : d < 31.5) :
    |Deltat.PolyBefore948 948 - Deltat.Poly948to1600 948| ≤ 0.21 ∧
    (∃ v, Deltat.Interp10A (CalendarGregorianToJD 1999 12 d) = some v ∧ |Deltat.PolyAfter2000 2000 - v| ≤ 1.3) ∧
    ∀ y : ℝ, |y - 2100| ≤ 1 → |Deltat.PolyAfter2000 y - Deltat.PolyAfter2000 2100| ≤ 2 * |y - 2100| := by
  refine ⟨?_, ⟨63.8, ?_, ?_⟩, fun y hy => ?_⟩
  · unfold Deltat.PolyBefore948 Deltat.Poly948to1600 Deltat.c2000 hornerR
    simp only [List.foldr]
    norm_num [abs_le]
  · have := C77_tabulated 190 (by rw [table10A_length]; norm_num) d h0 h1
    rw [show (1619 + 2 * ((190 : ℕ) : ℤ)) = 1999 by norm_num] at this
    rw [this, table_get, show tableQ.getD 190 0 = 63.8 from rfl]
    norm_num
  · unfold Deltat.PolyAfter2000 Deltat.Poly948to1600 Deltat.c2000 hornerR
    simp only [List.foldr]
    norm_num [abs_le]
  · unfold Deltat.PolyAfter2000 Deltat.Poly948to1600 Deltat.c2000 hornerR
    simp only [List.foldr, lt_irrefl, if_false]
    obtain ⟨w, hw⟩ : ∃ w, w = y - 2100 := ⟨_, rfl⟩
    rw [← hw] at hy ⊢
    have hy2 : y = w + 2100 := by linarith
    rw [hy2]
    have hle := abs_le.1 hy
    split_ifs with hc
    · have : ((0 * ((w + 2100 - 2000) * 0.01) + 25.3) * ((w + 2100 - 2000) * 0.01) + 102) * ((w + 2100 - 2000) * 0.01) + 102 + 0.37 * w -
          (((0 * ((2100 - 2000) * 0.01) + 25.3) * ((2100 - 2000) * 0.01) + 102) * ((2100 - 2000) * 0.01) + 102) = w * (1.896 + 0.00253 * w) := by
        ring
      rw [this, abs_mul, mul_comm]
      refine mul_le_mul_of_nonneg_right ?_ (abs_nonneg _)
      rw [abs_le]; constructor <;> linarith [hle.1, hle.2]
    · have : ((0 * ((w + 2100 - 2000) * 0.01) + 25.3) * ((w + 2100 - 2000) * 0.01) + 102) * ((w + 2100 - 2000) * 0.01) + 102 -
          (((0 * ((2100 - 2000) * 0.01) + 25.3) * ((2100 - 2000) * 0.01) + 102) * ((2100 - 2000) * 0.01) + 102) = w * (1.526 + 0.00253 * w) := by
        ring
      rw [this, abs_mul, mul_comm]
      refine mul_le_mul_of_nonneg_right ?_ (abs_nonneg _)
      rw [abs_le]; constructor <;> linarith [hle.1, hle.2]

/-- A case: 1936, where the long polynomial is worst. -/
example : ∃ v, Deltat.Interp10A 2428172.5 = some v ∧ |Deltat.Poly1800to1997 2428172.5 - v| ≤ 2.31 :=
  C147_1800to1997 _ (by norm_num) (by norm_num)

end Verif.Props
