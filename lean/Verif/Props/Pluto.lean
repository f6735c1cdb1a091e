import Verif.Model.Pluto
import Verif.Lemmas.TrigGrid
import Verif.Lemmas.Rotation
import Verif.Spec.Sphere
import Verif.Props.Elliptic
import Verif.Lemmas.Planet
import Mathlib.Analysis.Real.Pi.Bounds
import Mathlib.Analysis.Calculus.Deriv.Basic
import Mathlib.Tactic
/-
C153, C154, C155: the motion of Pluto (package pluto).
-/
set_option Elab.async false

namespace Verif.Props.Pluto

open Real Verif.Go Verif.Model Verif.Model.Pluto Verif.Lemmas

/-! ### Main terms and small terms -/

/-- The rows without Jupiter and Saturn, and the others. -/
def mainRows : List Row := t37.take 6
def smallRows : List Row := t37.drop 6

theorem total_split (A B : Row → ℚ) (T : ℝ) : total A B t37 T = total A B mainRows T + total A B smallRows T := by
  unfold total
  rw [← List.sum_append, ← List.map_append]
  congr 2

def amount (A B : Row → ℚ) (l : List Row) : ℚ := (l.map fun t => |A t| + |B t|).sum

theorem total_le (A B : Row → ℚ) (l : List Row) (T : ℝ) : |total A B l T| ≤ amount A B l := by
  induction l with
  | nil => simp [total, amount]
  | cons t l ih =>
    have e1 : total A B (t :: l) T = (A t * sin (t.arg T) + B t * cos (t.arg T)) + total A B l T := by simp [total]
    have e2 : ((amount A B (t :: l) : ℚ) : ℝ) = (|(A t : ℝ)| + |(B t : ℝ)|) + amount A B l := by simp [amount]
    rw [e1, e2]
    refine (abs_add_le _ _).trans (add_le_add ((abs_add_le _ _).trans (add_le_add ?_ ?_)) ih)
    · rw [abs_mul]; exact mul_le_of_le_one_right (abs_nonneg _) (abs_sin_le_one _)
    · rw [abs_mul]; exact mul_le_of_le_one_right (abs_nonneg _) (abs_cos_le_one _)

/-- The coefficients of the main terms, after a constant c. -/
def coefs (c : ℚ) (A B : Row → ℚ) : List (ℚ × ℚ) := (0, c) :: mainRows.map fun t => (A t, B t)

theorem main_eq (c : ℚ) (A B : Row → ℚ) (T : ℝ) : total A B mainRows T + c = trig 0 (coefs c A B) (P T * deg) := by
  simp only [coefs, mainRows, t37, List.take, List.map, total, trig, Row.arg, List.sum_cons, List.sum_nil]
  norm_num
  ring_nf

/-! ### The derivative -/

/-- Degrees per century of the argument of a row. -/
def rate (t : Row) : ℚ := t.i * 3034.9057 + t.j * 1222.1138 + t.k * 144.96

theorem arg_deriv (t : Row) (T : ℝ) : HasDerivAt t.arg (rate t * deg) T := by
  have h : HasDerivAt (fun T : ℝ => (34.35 * deg * t.i + 50.08 * deg * t.j + 238.96 * deg * t.k) + (rate t * deg) * T) (rate t * deg) T := by
    simpa using ((hasDerivAt_id T).const_mul ((rate t : ℝ) * deg)).const_add (34.35 * deg * t.i + 50.08 * deg * t.j + 238.96 * deg * t.k)
  refine h.congr_of_eventuallyEq (Filter.Eventually.of_forall fun x => ?_)
  simp only [Row.arg, J, S, P, rate]
  push_cast
  ring

/-- The coefficients of the derivative. -/
def dA (B : Row → ℚ) (t : Row) : ℚ := -(B t * rate t)
def dB (A : Row → ℚ) (t : Row) : ℚ := A t * rate t

theorem total_deriv (A B : Row → ℚ) (l : List Row) (T : ℝ) : HasDerivAt (total A B l) (total (dA B) (dB A) l T * deg) T := by
  induction l with
  | nil =>
    have h : total A B [] = fun _ => 0 := by funext x; simp [total]
    rw [h]
    simpa [total] using hasDerivAt_const T (0 : ℝ)
  | cons t l ih =>
    have h1 := arg_deriv t T
    have h2 := ((h1.sin.const_mul (A t : ℝ)).add (h1.cos.const_mul (B t : ℝ))).add ih
    refine (h2.congr_of_eventuallyEq (Filter.Eventually.of_forall fun x => ?_)).congr_deriv ?_
    · simp [total]
    · simp only [total, dA, dB, List.map_cons, List.sum_cons]
      push_cast
      ring

/-! ### The points of the circle -/

def rI : List (ℤ × ℤ) := [(0, 407241346), (66865439, 68951812), (-11827535, -332538), (1593179, -1438890), (-18444, 483220), (-65977, -85431), (31174, -6032)]
def bI : List (ℤ × ℤ) := [(0, -39082390), (-54528520, -149748620), (35278120, 16727900), (-10507480, 3276470), (1786900, -2921530), (186500, 1003400), (-306970, -258230)]
def lI : List (ℤ × ℤ) := [(0, 0), (-197998050, 198500550), (8971440, -49548290), (6111490, 12110270), (-3412430, -1895850), (1292870, -349920), (-381640, 308930)]
def dI : List (ℤ × ℤ) := [(0, 0), (-198500550, -197998050), (99096580, 17942880), (-36330810, 18334470), (7583400, -13649720), (1749600, 6464350), (-1853580, -2289840)]

def dlA (t : Row) : ℚ := dA Row.lB t / 144.96
def dlB (t : Row) : ℚ := dB Row.lA t / 144.96

theorem units : unitsOf 10000000 rI = coefs 40.7241346 Row.rA Row.rB ∧ unitsOf 10000000 bI = coefs (-3.908239) Row.bA Row.bB ∧
    unitsOf 10000000 lI = coefs 0 Row.lA Row.lB ∧ unitsOf 10000000 dI = coefs 0 dlA dlB := by
  decide +kernel

/-- Bounds at a point of the circle: radius, latitude, inequality of the longitude, and the areal velocity.  Units of 10⁻⁷. -/
def good (r b l d : ℤ) : Bool :=
  let r1 := r - 820000
  let r2 := r + 820000
  let f1 := 1000000000000000000 + 1745329252 * (d - 13900000) - 1000000000000
  let f2 := 1000000000000000000 + 1745329252 * (d + 13900000) + 1000000000000
  let x := 174533 * (b.natAbs + 1770000)
  let y := 1745329 * (b.natAbs - 1770000 : ℤ)
  let c2 : ℤ := if y ≤ 0 then 3 * 1000000000000000000000000000000000000000000000000000000000000 else 3 * 1000000000000000000000000000000000000000000000000000000000000 - 3 * 1000000000000000000000000000000 * (y * y) + y * y * (y * y)
  decide (295700000 ≤ r1) && decide (r2 ≤ 494100000) && decide (b.natAbs + 1770000 ≤ 173300000) && decide (l.natAbs + 3300000 ≤ 298600000) &&
  decide (-500000000 ≤ d - 13900000) && decide (d + 13900000 ≤ 500000000) &&
  decide (1358 * 1000000000000000000000000000000000000000000000000000000000000 ≤ r1 * r1 * f1 * (10000000000000000000000000000 - x * x)) && decide (r2 * r2 * f2 * c2 ≤ 4536 * 100000000000000000000000000000000000000000000000000000000000000000000000000000000000000000000)

def goodAt (σ : ℤ) (j : ℕ) : Bool := good (vpt 250 σ j rI) (vpt 250 σ j bI) (vpt 250 σ j lI) (vpt 250 σ j dI)

/-- 63 points, one after the other to keep the memory of each check small. -/
def chunk (σ : ℤ) (s : ℕ) : Bool := (List.range 63).all fun i => goodAt σ (s + i)

theorem chunk_p0 : chunk 1 0 = true := by decide +kernel
theorem chunk_p1 : chunk 1 63 = true := by decide +kernel
theorem chunk_p2 : chunk 1 126 = true := by decide +kernel
theorem chunk_p3 : chunk 1 189 = true := by decide +kernel
theorem chunk_p4 : chunk 1 252 = true := by decide +kernel
theorem chunk_p5 : chunk 1 315 = true := by decide +kernel
theorem chunk_p6 : chunk 1 378 = true := by decide +kernel
theorem chunk_p7 : chunk 1 441 = true := by decide +kernel
theorem chunk_m0 : chunk (-1) 0 = true := by decide +kernel
theorem chunk_m1 : chunk (-1) 63 = true := by decide +kernel
theorem chunk_m2 : chunk (-1) 126 = true := by decide +kernel
theorem chunk_m3 : chunk (-1) 189 = true := by decide +kernel
theorem chunk_m4 : chunk (-1) 252 = true := by decide +kernel
theorem chunk_m5 : chunk (-1) 315 = true := by decide +kernel
theorem chunk_m6 : chunk (-1) 378 = true := by decide +kernel
theorem chunk_m7 : chunk (-1) 441 = true := by decide +kernel

theorem of_chunk {σ : ℤ} {s j : ℕ} (h : chunk σ s = true) (h1 : s ≤ j) (h2 : j < s + 63) : goodAt σ j = true := by
  unfold chunk at h
  rw [List.all_eq_true] at h
  have := h (j - s) (List.mem_range.2 (by omega))
  rwa [show s + (j - s) = j by omega] at this

theorem good_all {σ : ℤ} (hσ : σ ∈ [(1 : ℤ), -1]) {j : ℕ} (hj : j ∈ List.range (2 * 250 + 1)) : goodAt σ j = true := by
  rw [List.mem_range] at hj
  simp only [List.mem_cons, List.not_mem_nil, or_false] at hσ
  have hc : j < 63 ∨ (63 ≤ j ∧ j < 126) ∨ (126 ≤ j ∧ j < 189) ∨ (189 ≤ j ∧ j < 252) ∨ (252 ≤ j ∧ j < 315) ∨ (315 ≤ j ∧ j < 378) ∨
      (378 ≤ j ∧ j < 441) ∨ (441 ≤ j ∧ j < 504) := by omega
  rcases hσ with rfl | rfl
  · rcases hc with h | h | h | h | h | h | h | h
    · exact of_chunk chunk_p0 (by omega) (by omega)
    · exact of_chunk chunk_p1 (by omega) (by omega)
    · exact of_chunk chunk_p2 (by omega) (by omega)
    · exact of_chunk chunk_p3 (by omega) (by omega)
    · exact of_chunk chunk_p4 (by omega) (by omega)
    · exact of_chunk chunk_p5 (by omega) (by omega)
    · exact of_chunk chunk_p6 (by omega) (by omega)
    · exact of_chunk chunk_p7 (by omega) (by omega)
  · rcases hc with h | h | h | h | h | h | h | h
    · exact of_chunk chunk_m0 (by omega) (by omega)
    · exact of_chunk chunk_m1 (by omega) (by omega)
    · exact of_chunk chunk_m2 (by omega) (by omega)
    · exact of_chunk chunk_m3 (by omega) (by omega)
    · exact of_chunk chunk_m4 (by omega) (by omega)
    · exact of_chunk chunk_m5 (by omega) (by omega)
    · exact of_chunk chunk_m6 (by omega) (by omega)
    · exact of_chunk chunk_m7 (by omega) (by omega)

theorem lips : tlip 0 (coefs 40.7241346 Row.rA Row.rB) / 250 + 1 / 10000000 + amount Row.rA Row.rB smallRows ≤ 0.082 ∧
    tlip 0 (coefs (-3.908239) Row.bA Row.bB) / 250 + 1 / 10000000 + amount Row.bA Row.bB smallRows ≤ 0.177 ∧
    tlip 0 (coefs 0 Row.lA Row.lB) / 250 + 1 / 10000000 + amount Row.lA Row.lB smallRows ≤ 0.33 ∧
    tlip 0 (coefs 0 dlA dlB) / 250 + 1 / 10000000 + amount dlA dlB smallRows ≤ 1.39 := by
  decide +kernel

/-! ### The motion -/

theorem pdeg : 0 < deg ∧ 0.01745329 ≤ deg ∧ deg ≤ 0.0174533 ∧ |deg - 0.01745329252| ≤ 0.00000000001 := by
  have h1 := pi_gt_d20
  have h2 := pi_lt_d20
  unfold deg
  refine ⟨by positivity, by linarith, by linarith, ?_⟩
  rw [abs_le]; constructor <;> linarith

theorem near_sum {m s v e1 e2 e : ℝ} (h1 : |m - v| ≤ e1) (h2 : |s| ≤ e2) (h : e1 + e2 ≤ e) : |m + s - v| ≤ e := by
  rw [show m + s - v = (m - v) + s by ring]
  exact (abs_add_le _ _).trans ((add_le_add h1 h2).trans h)

theorem natAbs_cast (b : ℤ) : ((b.natAbs : ℤ) : ℝ) = |(b : ℝ)| := by rw [Int.natCast_natAbs]; push_cast; rfl

/-- Bounds for cos²: with y ≤ |x| ≤ X. -/
theorem cos_sq_bounds {x X : ℝ} (h : |x| ≤ X) : 1 - X ^ 2 ≤ cos x ^ 2 := by
  have h1 : |sin x| ≤ |x| := abs_sin_le_abs
  have h2 : sin x ^ 2 ≤ X ^ 2 := by rw [← sq_abs (sin x)]; exact pow_le_pow_left₀ (abs_nonneg _) (h1.trans h) 2
  have := sin_sq_add_cos_sq x
  linarith

theorem cos_sq_upper {x y : ℝ} (h0 : 0 ≤ y) (h : y ≤ |x|) (h1 : |x| ≤ 1) : cos x ^ 2 ≤ 1 - y ^ 2 + y ^ 4 / 3 := by
  have h2 : 0 ≤ |x| := abs_nonneg x
  have h3 := sin_ge_sub_cube h2
  have h4 : sin |x| ^ 2 = sin x ^ 2 := by
    rcases abs_choice x with e | e <;> rw [e]
    rw [sin_neg]; ring
  have h5 := sin_sq_add_cos_sq x
  generalize |x| = z at *
  have h7 : 0 ≤ z - z ^ 3 / 6 := by nlinarith [pow_le_one₀ h2 h1 (n := 2)]
  have h8 := pow_le_pow_left₀ h7 h3 2
  have h9 : y ^ 2 ≤ z ^ 2 := pow_le_pow_left₀ h0 h 2
  have h10 : z ^ 2 ≤ 1 := pow_le_one₀ h2 h1
  have h11 : 0 ≤ z ^ 6 := by positivity
  nlinarith [sq_nonneg y, sq_nonneg z]

theorem scale_lower {ρ f k R F K : ℝ} (h1 : 0 ≤ R) (h2 : R ≤ ρ) (h3 : 0 ≤ F) (h4 : F ≤ f) (h5 : 0 ≤ K) (h6 : K ≤ k) : R ^ 2 * F * K ≤ ρ ^ 2 * f * k := by
  have : 0 ≤ ρ := h1.trans h2
  gcongr
  exact mul_nonneg (sq_nonneg _) (h3.trans h4)

theorem good_bounds {r b l d : ℤ} (hg : good r b l d = true) {ρ β lam δ : ℝ} (h1 : |ρ - r / 10000000| ≤ 0.082) (h2 : |β - b / 10000000| ≤ 0.177)
    (h3 : |lam - l / 10000000| ≤ 0.33) (h4 : |δ - d / 10000000| ≤ 1.39) :
    (29.57 ≤ ρ ∧ ρ ≤ 49.41 ∧ |β| ≤ 17.33 ∧ |lam| ≤ 29.86) ∧ 0 < 1 + deg * δ ∧
    1358 ≤ ρ ^ 2 * (1 + deg * δ) * cos (β * deg) ^ 2 ∧ ρ ^ 2 * (1 + deg * δ) * cos (β * deg) ^ 2 ≤ 1512 := by
  simp only [good, Bool.and_eq_true, decide_eq_true_eq] at hg
  obtain ⟨⟨⟨⟨⟨⟨⟨g1, g2⟩, g3⟩, g4⟩, g5⟩, g6⟩, g7⟩, g8⟩ := hg
  obtain ⟨d0, d1, d2, d3⟩ := pdeg
  have hb : ((b.natAbs : ℤ) : ℝ) = |(b : ℝ)| := natAbs_cast b
  have hl : ((l.natAbs : ℤ) : ℝ) = |(l : ℝ)| := natAbs_cast l
  have g3' : |(b : ℝ)| + 1770000 ≤ 173300000 := by rw [← hb]; exact_mod_cast g3
  have g4' : |(l : ℝ)| + 3300000 ≤ 298600000 := by rw [← hl]; exact_mod_cast g4
  have g1' : (295700000 : ℝ) ≤ r - 820000 := by exact_mod_cast g1
  have g2' : (r : ℝ) + 820000 ≤ 494100000 := by exact_mod_cast g2
  have g5' : (-500000000 : ℝ) ≤ d - 13900000 := by exact_mod_cast g5
  have g6' : (d : ℝ) + 13900000 ≤ 500000000 := by exact_mod_cast g6
  rw [abs_le] at h1 h4 d3
  have hβ : |β| ≤ |(b : ℝ)| / 10000000 + 0.177 := by
    have := abs_add_le (β - b / 10000000) ((b : ℝ) / 10000000)
    rw [sub_add_cancel, abs_div, abs_of_pos (show (0 : ℝ) < 10000000 by norm_num)] at this
    linarith
  have hβ' : |(b : ℝ)| / 10000000 - 0.177 ≤ |β| := by
    have := abs_sub_abs_le_abs_sub ((b : ℝ) / 10000000) β
    rw [abs_sub_comm, abs_div, abs_of_pos (show (0 : ℝ) < 10000000 by norm_num)] at this
    linarith
  have hl' : |lam| ≤ |(l : ℝ)| / 10000000 + 0.33 := by
    have := abs_add_le (lam - l / 10000000) ((l : ℝ) / 10000000)
    rw [sub_add_cancel, abs_div, abs_of_pos (show (0 : ℝ) < 10000000 by norm_num)] at this
    linarith
  have hδ : |δ| ≤ 50 := by rw [abs_le]; constructor <;> linarith
  have he : |(deg - 0.01745329252) * δ| ≤ 0.00000000001 * 50 := by
    rw [abs_mul]; exact mul_le_mul (abs_le.2 d3) hδ (abs_nonneg _) (by norm_num)
  rw [abs_le] at he
  have hF : deg * δ = 0.01745329252 * δ + (deg - 0.01745329252) * δ := by ring
  obtain ⟨F1, hF1⟩ : ∃ F1 : ℝ, F1 = (1000000000000000000 + 1745329252 * (d - 13900000) - 1000000000000) / 1000000000000000000 := ⟨_, rfl⟩
  obtain ⟨F2, hF2⟩ : ∃ F2 : ℝ, F2 = (1000000000000000000 + 1745329252 * (d + 13900000) + 1000000000000) / 1000000000000000000 := ⟨_, rfl⟩
  have f1 : F1 ≤ 1 + deg * δ := by rw [hF, hF1]; linarith
  have f2 : 1 + deg * δ ≤ F2 := by rw [hF, hF2]; linarith
  have f3 : 0.12 ≤ F1 := by rw [hF1]; linarith
  have hbd : |β * deg| ≤ 0.0174533 * (|(b : ℝ)| / 10000000 + 0.177) := by
    rw [abs_mul, abs_of_pos d0, mul_comm]
    exact mul_le_mul d2 hβ (abs_nonneg _) (by norm_num)
  have hb1 : |β * deg| ≤ 1 := by linarith
  have c1 := cos_sq_bounds hbd
  obtain ⟨X, hX⟩ : ∃ X : ℝ, X = 0.0174533 * (|(b : ℝ)| / 10000000 + 0.177) := ⟨_, rfl⟩
  rw [← hX] at c1 hbd
  have hX1 : X ≤ 0.31 := by rw [hX]; linarith
  have hX0 : 0 ≤ X := (abs_nonneg _).trans hbd
  have hX2 : X ^ 2 ≤ 1 := pow_le_one₀ hX0 (by linarith)
  refine ⟨⟨by linarith, by linarith, by linarith, by linarith⟩, by linarith, ?_, ?_⟩
  · have s := scale_lower (R := (r - 820000 : ℝ) / 10000000) (ρ := ρ) (by linarith) (by linarith) (by linarith : 0 ≤ F1) f1 (by linarith : 0 ≤ 1 - X ^ 2) c1
    refine le_trans ?_ s
    have g7' : (1358 * 1000000000000000000000000000000000000000000000000000000000000 : ℝ) ≤ (r - 820000) * (r - 820000) *
        (1000000000000000000 + 1745329252 * (d - 13900000) - 1000000000000) *
        (10000000000000000000000000000 - (174533 * (((b.natAbs : ℤ) : ℝ) + 1770000)) * (174533 * (((b.natAbs : ℤ) : ℝ) + 1770000))) := by exact_mod_cast g7
    rw [hb] at g7'
    rw [hF1, hX]
    have e : ((r - 820000 : ℝ) / 10000000) ^ 2 * ((1000000000000000000 + 1745329252 * (d - 13900000) - 1000000000000) / 1000000000000000000) *
        (1 - (0.0174533 * (|(b : ℝ)| / 10000000 + 0.177)) ^ 2) = (r - 820000) * (r - 820000) *
        (1000000000000000000 + 1745329252 * (d - 13900000) - 1000000000000) *
        (10000000000000000000000000000 - (174533 * (|(b : ℝ)| + 1770000)) * (174533 * (|(b : ℝ)| + 1770000))) / 1000000000000000000000000000000000000000000000000000000000000 := by
      ring
    rw [e]
    rw [le_div_iff₀ (by norm_num)]
    exact g7'
  · obtain ⟨C, hC⟩ : ∃ C : ℤ, C = (if 1745329 * (b.natAbs - 1770000 : ℤ) ≤ 0 then 3 * 1000000000000000000000000000000000000000000000000000000000000 else 3 * 1000000000000000000000000000000000000000000000000000000000000 - 3 * 1000000000000000000000000000000 * ((1745329 * (b.natAbs - 1770000 : ℤ)) * (1745329 * (b.natAbs - 1770000 : ℤ))) + (1745329 * (b.natAbs - 1770000 : ℤ)) * (1745329 * (b.natAbs - 1770000 : ℤ)) * ((1745329 * (b.natAbs - 1770000 : ℤ)) * (1745329 * (b.natAbs - 1770000 : ℤ)))) := ⟨_, rfl⟩
    rw [← hC] at g8
    have hc : cos (β * deg) ^ 2 ≤ (C : ℝ) / 3000000000000000000000000000000000000000000000000000000000000 := by
      split_ifs at hC with hy
      · rw [hC]
        refine (cos_sq_le_one (β * deg)).trans (le_of_eq ?_)
        norm_num
      · push Not at hy
        have hy' : (0 : ℝ) < 1745329 * (((b.natAbs : ℤ) : ℝ) - 1770000) := by exact_mod_cast hy
        rw [hb] at hy'
        have := cos_sq_upper (x := β * deg) (y := 0.01745329 * (|(b : ℝ)| / 10000000 - 0.177)) (by linarith) (by
          rw [abs_mul, abs_of_pos d0, mul_comm |β|]
          exact mul_le_mul d1 hβ' (by linarith) (by linarith)) hb1
        refine this.trans (le_of_eq ?_)
        rw [hC]
        push_cast [hb]
        ring
    have s := scale_lower (R := ρ) (ρ := (r + 820000 : ℝ) / 10000000) (by linarith) (by linarith) (by linarith : 0 ≤ 1 + deg * δ) f2 (sq_nonneg _) hc
    refine s.trans ?_
    have g8' : ((r : ℝ) + 820000) * (r + 820000) * (1000000000000000000 + 1745329252 * (d + 13900000) + 1000000000000) * C ≤ 4536 * 10 ^ 92 := by
      norm_num
      exact_mod_cast g8
    rw [hF2]
    have e : ((r + 820000 : ℝ) / 10000000) ^ 2 * ((1000000000000000000 + 1745329252 * (d + 13900000) + 1000000000000) / 1000000000000000000) *
        (C / 3000000000000000000000000000000000000000000000000000000000000) = ((r : ℝ) + 820000) * (r + 820000) * (1000000000000000000 + 1745329252 * (d + 13900000) + 1000000000000) * C / (3 * 10 ^ 92) := by
      ring
    rw [e, div_le_iff₀ (by norm_num)]
    refine g8'.trans (le_of_eq (by norm_num))

theorem key (T : ℝ) : ∃ r b l d : ℤ, good r b l d = true ∧ |total Row.rA Row.rB t37 T + 40.7241346 - r / 10000000| ≤ 0.082 ∧
    |total Row.bA Row.bB t37 T - 3.908239 - b / 10000000| ≤ 0.177 ∧ |total Row.lA Row.lB t37 T - l / 10000000| ≤ 0.33 ∧
    |total dlA dlB t37 T - d / 10000000| ≤ 1.39 := by
  obtain ⟨σ, hσ, j, hj, Q, hc, hs, m, hm⟩ := grid_cover (P T * deg) (N := 250) (by norm_num)
  obtain ⟨u1, u2, u3, u4⟩ := units
  obtain ⟨l1, l2, l3, l4⟩ := lips
  have near : ∀ (c : ℚ) (A B : Row → ℚ) (L : List (ℤ × ℤ)) (e : ℚ), unitsOf 10000000 L = coefs c A B →
      tlip 0 (coefs c A B) / 250 + 1 / 10000000 + amount A B smallRows ≤ e →
      |total A B t37 T + c - (vpt 250 σ j L : ℝ) / 10000000| ≤ e := by
    intro c A B L e hu hl
    have h1 := trig_near L (N := 250) (K := 10000000) (by norm_num) (by norm_num) hc hs hm
    rw [hu, ← main_eq] at h1
    have h2 := total_le A B smallRows T
    have h3 : ((tlip 0 (coefs c A B) / 250 + 1 / 10000000 + amount A B smallRows : ℚ) : ℝ) ≤ e := by exact_mod_cast hl
    push_cast at h3 h1
    rw [total_split, show total A B mainRows T + total A B smallRows T + (c : ℝ) = (total A B mainRows T + c) + total A B smallRows T by ring]
    exact near_sum h1 h2 h3
  refine ⟨_, _, _, _, good_all hσ hj, ?_, ?_, ?_, ?_⟩
  · have := near _ _ _ _ _ u1 l1
    push_cast at this
    exact this
  · have := near _ _ _ _ _ u2 l2
    push_cast at this
    rw [sub_eq_add_neg (total Row.bA Row.bB t37 T)]
    exact this
  · have := near _ _ _ _ _ u3 l3
    push_cast at this
    rw [add_zero] at this
    exact this
  · have := near _ _ _ _ _ u4 l4
    push_cast at this
    rw [add_zero] at this
    exact this

/-- **C153.**  At every date the radius vector of Pluto is between 29.57 and 49.41 AU, the latitude within 17.33°, and the longitude within 29.86° of a mean
longitude that advances by 144.96° a century. -/
theorem C153_orbit (jde : ℝ) : 29.57 ≤ (Heliocentric jde).2.2 ∧ (Heliocentric jde).2.2 ≤ 49.41 ∧ |(Heliocentric jde).2.1| ≤ 17.33 * deg ∧
    |(Heliocentric jde).1 - (238.958116 + 144.96 * ((jde - 2451545) / 36525)) * deg| ≤ 29.86 * deg := by
  obtain ⟨r, b, l, d, hg, h1, h2, h3, h4⟩ := key (J2000Century jde)
  obtain ⟨⟨g1, g2, g3, g4⟩, -⟩ := good_bounds hg h1 h2 h3 h4
  have d0 := pdeg.1
  have hT : J2000Century jde = (jde - 2451545) / 36525 := by unfold J2000Century; norm_num
  refine ⟨g1, g2, ?_, ?_⟩
  · simp only [Heliocentric]
    rw [← sub_mul, abs_mul, abs_of_pos d0]
    exact mul_le_mul_of_nonneg_right g3 d0.le
  · simp only [Heliocentric, hT] at *
    rw [add_sub_cancel_right, abs_mul, abs_of_pos d0]
    exact mul_le_mul_of_nonneg_right g4 d0.le

/-- The mean motion, radians per day. -/
noncomputable def n : ℝ := 144.96 * deg / 36525

theorem rate_total (l : List Row) (T : ℝ) : total (dA Row.lB) (dB Row.lA) l T = 144.96 * total dlA dlB l T := by
  induction l with
  | nil => simp [total]
  | cons t l ih =>
    simp only [total, List.map_cons, List.sum_cons] at ih ⊢
    rw [ih]
    simp only [dlA, dlB]
    push_cast
    ring

/-- **C154.**  At every date the longitude increases, and the area swept in the plane of the ecliptic per day, r² cos² b dl/dt, stays between 1358 and 1512 times the mean
motion: within 5.4% of its middle value, as the law of areas wants, though r² itself varies by a factor 2.7. -/
theorem C154_areas (jde : ℝ) : ∃ l' : ℝ, HasDerivAt (fun t => (Heliocentric t).1) l' jde ∧ 0 < l' ∧
    1358 * n ≤ (Heliocentric jde).2.2 ^ 2 * cos (Heliocentric jde).2.1 ^ 2 * l' ∧ (Heliocentric jde).2.2 ^ 2 * cos (Heliocentric jde).2.1 ^ 2 * l' ≤ 1512 * n := by
  obtain ⟨r, b, l, d, hg, h1, h2, h3, h4⟩ := key (J2000Century jde)
  obtain ⟨-, g5, g6, g7⟩ := good_bounds hg h1 h2 h3 h4
  have n0 : 0 < n := by have := pdeg.1; unfold n; positivity
  have hd : HasDerivAt J2000Century (1 / 36525) jde := by
    have : HasDerivAt (fun t : ℝ => (t - 2451545) / 36525) (1 / 36525) jde := ((hasDerivAt_id jde).sub_const 2451545).div_const 36525
    refine this.congr_of_eventuallyEq (Filter.Eventually.of_forall fun x => ?_)
    unfold J2000Century; norm_num
  have e2 : total Row.bA Row.bB t37 (J2000Century jde) * deg - 3.908239 * deg = (total Row.bA Row.bB t37 (J2000Century jde) - 3.908239) * deg := by ring
  refine ⟨n * (1 + deg * total dlA dlB t37 (J2000Century jde)), ?_, mul_pos n0 g5, ?_, ?_⟩
  · have t1 := ((total_deriv Row.lA Row.lB t37 (J2000Century jde)).comp jde hd).mul_const deg
    have t2 := ((hd.const_mul 144.96).const_add 238.958116).mul_const deg
    refine ((t1.add t2).congr_of_eventuallyEq (Filter.Eventually.of_forall fun x => ?_)).congr_deriv ?_
    · simp [Heliocentric]
    · rw [rate_total]; unfold n; ring
  · simp only [Heliocentric, e2]
    calc 1358 * n ≤ _ := mul_le_mul_of_nonneg_right g6 n0.le
      _ = _ := by ring
  · simp only [Heliocentric, e2]
    calc _ = _ * n := by ring
      _ ≤ 1512 * n := mul_le_mul_of_nonneg_right g7 n0.le

/-- The date of example 37.a: 1992 October 13. -/
example : ∃ l' : ℝ, HasDerivAt (fun t => (Heliocentric t).1) l' 2448908.5 ∧ 0 < l' ∧ (Heliocentric 2448908.5).2.2 ≤ 49.41 := by
  obtain ⟨l', h1, h2, -⟩ := C154_areas 2448908.5
  exact ⟨l', h1, h2, (C153_orbit 2448908.5).2.1⟩

/-! ### C155 -/

open Verif.Props Verif.Model.Elliptic Verif.Spec in
/-- The closure of `Astrometric` turns the heliocentric place from the ecliptic to the equator of J2000. -/
theorem C155_turn (t : ℝ) : ∃ v : V3, v = (Heliocentric t).2.2 • dir (Heliocentric t).1 (Heliocentric t).2.1 ∧
    xyz t = (v 0, COblJ2000 * v 1 - SOblJ2000 * v 2, SOblJ2000 * v 1 + COblJ2000 * v 2) := by
  refine ⟨_, rfl, ?_⟩
  unfold xyz dir
  simp only [PiLp.smul_apply, smul_eq_mul, Matrix.cons_val_zero, Matrix.cons_val_one, Matrix.cons_val]
  refine Prod.ext ?_ (Prod.ext ?_ ?_) <;> simp only <;> ring

open Verif.Props Verif.Model.Elliptic Verif.Spec in
theorem xyz_norm (t : ℝ) : 29.56 ≤ ‖vec3 (xyz t)‖ ∧ ‖vec3 (xyz t)‖ ≤ 49.42 := by
  obtain ⟨h1, h2, -⟩ := C153_orbit t
  unfold vec3 xyz
  simp only
  rw [norm_vec]
  obtain ⟨r, hr⟩ : ∃ r, r = (Heliocentric t).2.2 := ⟨_, rfl⟩
  obtain ⟨b, hb⟩ : ∃ b, b = (Heliocentric t).2.1 := ⟨_, rfl⟩
  obtain ⟨l, hl⟩ : ∃ l, l = (Heliocentric t).1 := ⟨_, rfl⟩
  rw [← hr, ← hb, ← hl]
  rw [← hr] at h1 h2
  have ho := abs_le.1 C112_obliquity
  have e : r * cos l * cos b * (r * cos l * cos b) +
        r * (sin l * cos b * COblJ2000 - sin b * SOblJ2000) * (r * (sin l * cos b * COblJ2000 - sin b * SOblJ2000)) +
      r * (sin l * cos b * SOblJ2000 + sin b * COblJ2000) * (r * (sin l * cos b * SOblJ2000 + sin b * COblJ2000)) =
      r ^ 2 * (1 + (SOblJ2000 ^ 2 + COblJ2000 ^ 2 - 1) * (sin l ^ 2 * cos b ^ 2 + sin b ^ 2)) := by
    have c1 := sin_sq_add_cos_sq l
    have c2 := sin_sq_add_cos_sq b
    clear * - c1 c2
    generalize sin l = sl at *
    generalize cos l = cl at *
    generalize sin b = sb at *
    generalize cos b = cb at *
    grind
  rw [e]
  obtain ⟨q, hq⟩ : ∃ q, q = sin l ^ 2 * cos b ^ 2 + sin b ^ 2 := ⟨_, rfl⟩
  have q0 : 0 ≤ q := by rw [hq]; positivity
  have q1 : q ≤ 1 := by
    rw [hq]
    have c1 := sin_sq_add_cos_sq l
    have c2 := sin_sq_add_cos_sq b
    nlinarith [mul_nonneg (sq_nonneg (cos l)) (sq_nonneg (cos b))]
  rw [← hq]
  obtain ⟨k, hk⟩ : ∃ k, k = (SOblJ2000 ^ 2 + COblJ2000 ^ 2 - 1) * q := ⟨_, rfl⟩
  have k1 : |k| ≤ 0.00000001 := by
    rw [hk, abs_mul, abs_of_nonneg q0]
    have := mul_le_mul C112_obliquity q1 q0 (by norm_num)
    linarith
  rw [← hk]
  rw [abs_le] at k1
  clear * - h1 h2 k1
  constructor
  · apply le_sqrt_of_sq_le
    nlinarith
  · rw [sqrt_le_left (by norm_num)]
    nlinarith

open Verif.Props Verif.Model.Elliptic Verif.Spec in
/-- **C155.**  For a Sun at 0.98 to 1.02 AU, the right ascension and declination are the direction from the Earth to the place that Pluto had one light time
earlier, and that light time is between 0.164 and 0.292 days (4 to 7 hours). -/
theorem C155_astrometric (sun : ℝ → ℝ × ℝ × ℝ) (jde : ℝ) (h1 : 0.98 ≤ ‖vec3 (sun jde)‖) (h2 : ‖vec3 (sun jde)‖ ≤ 1.02) :
    ∃ α δ τ v, Astrometric jde sun = (α, δ) ∧ τ = LightTime ‖vec3 (sun jde) + vec3 (xyz jde)‖ ∧ 0.164 ≤ τ ∧ τ ≤ 0.292 ∧
      v = vec3 (sun jde) + vec3 (xyz (jde - τ)) ∧ v = ‖v‖ • dir α δ ∧ 28.5 ≤ ‖v‖ ∧ ‖v‖ ≤ 50.5 ∧ 0 ≤ α ∧ α < 2 * π ∧ |δ| ≤ π / 2 := by
  have hs : vec3 (sun jde) ≠ 0 := by rw [← norm_pos_iff]; linarith
  have hn : ∀ t, 28.5 ≤ ‖vec3 (sun jde) + vec3 (xyz t)‖ ∧ ‖vec3 (sun jde) + vec3 (xyz t)‖ ≤ 50.5 := by
    intro t
    obtain ⟨x1, x2⟩ := xyz_norm t
    have a1 := norm_add_le (vec3 (sun jde)) (vec3 (xyz t))
    have a2 := norm_sub_le (vec3 (sun jde) + vec3 (xyz t)) (vec3 (sun jde))
    rw [add_sub_cancel_left] at a2
    constructor <;> linarith
  obtain ⟨α, δ, ψ, v, e, hv, hd, α0, α1, hδ, -⟩ := C113_astrometric xyz sun jde hs (by
    rw [← norm_pos_iff]; exact lt_of_lt_of_le (by norm_num) (hn _).1)
  refine ⟨α, δ, _, v, ?_, rfl, ?_, ?_, hv, hd, ?_, ?_, α0, α1, hδ⟩
  · unfold Astrometric; rw [e]
  · unfold LightTime; linarith [(hn jde).1]
  · unfold LightTime; linarith [(hn jde).2]
  · rw [hv]; exact (hn _).1
  · rw [hv]; exact (hn _).2

/-- A Sun at distance one. -/
example : 0.98 ≤ ‖Verif.Props.vec3 (0.6, 0.64, 0.48)‖ ∧ ‖Verif.Props.vec3 (0.6, 0.64, 0.48)‖ ≤ 1.02 := by
  unfold Verif.Props.vec3
  simp only
  rw [norm_vec]
  constructor
  · apply le_sqrt_of_sq_le; norm_num
  · rw [sqrt_le_left (by norm_num)]; norm_num

end Verif.Props.Pluto
