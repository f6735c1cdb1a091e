import Mathlib.Tactic
import Mathlib.Analysis.Complex.Exponential
import Mathlib.Analysis.SpecialFunctions.Trigonometric.Basic
/-
Polynomials with rational coefficients as lists, their values on [−1, 1], and the Taylor polynomials of sine and cosine.
-/
namespace Verif.Lemmas.PolyQ

open Real

/-- Value of a polynomial. -/
noncomputable def ev : List ℚ → ℝ → ℝ
  | [], _ => 0
  | c :: p, y => (c : ℝ) + y * ev p y

/-- Sum. -/
def padd : List ℚ → List ℚ → List ℚ
  | [], q => q
  | p, [] => p
  | a :: p, b :: q => (a + b) :: padd p q

/-- Multiple. -/
def psc (k : ℚ) : List ℚ → List ℚ
  | [] => []
  | a :: p => k * a :: psc k p

/-- Product. -/
def pmul : List ℚ → List ℚ → List ℚ
  | [], _ => []
  | a :: p, q => padd (psc a q) (0 :: pmul p q)

/-- Sum of the absolute values of the coefficients. -/
def l1 : List ℚ → ℚ
  | [] => 0
  | a :: p => |a| + l1 p

theorem ev_padd (p q : List ℚ) (y : ℝ) : ev (padd p q) y = ev p y + ev q y := by
  induction p generalizing q with
  | nil => simp [padd, ev]
  | cons a p ih =>
    cases q with
    | nil => simp [padd, ev]
    | cons b q => simp only [padd, ev, ih]; push_cast; ring

theorem ev_psc (k : ℚ) (p : List ℚ) (y : ℝ) : ev (psc k p) y = k * ev p y := by
  induction p with
  | nil => simp [psc, ev]
  | cons a p ih => simp only [psc, ev, ih]; push_cast; ring

theorem ev_pmul (p q : List ℚ) (y : ℝ) : ev (pmul p q) y = ev p y * ev q y := by
  induction p with
  | nil => simp [pmul, ev]
  | cons a p ih => simp only [pmul, ev, ev_padd, ev_psc, ih]; push_cast; ring

theorem abs_ev_le (p : List ℚ) {y : ℝ} (hy : |y| ≤ 1) : |ev p y| ≤ (l1 p : ℝ) := by
  induction p with
  | nil => simp [ev, l1]
  | cons a p ih =>
    simp only [ev, l1]
    push_cast
    have h1 := abs_add_le (a : ℝ) (y * ev p y)
    have h2 : |y * ev p y| ≤ |ev p y| := by
      rw [abs_mul]
      exact mul_le_of_le_one_left (abs_nonneg _) hy
    linarith

/-- Taylor polynomials of sine and cosine at the polynomial `d`. -/
def psin (d : List ℚ) : List ℚ :=
  let d2 := pmul d d
  pmul d (padd [1] (pmul d2 (padd [-1/6] (pmul d2 (padd [1/120] (psc (-1/5040) d2))))))
def pcos (d : List ℚ) : List ℚ :=
  let d2 := pmul d d
  padd [1] (pmul d2 (padd [-1/2] (pmul d2 (padd [1/24] (pmul d2 (padd [-1/720] (psc (1/40320) d2)))))))

theorem parts {a b e : ℝ} (h : ‖(a : ℂ) + (b : ℂ) * Complex.I‖ ≤ e) : |b| ≤ e ∧ |a| ≤ e := by
  constructor
  · have := (Complex.abs_im_le_norm _).trans h
    simpa using this
  · have := (Complex.abs_re_le_norm _).trans h
    simpa using this

theorem taylor8 {x : ℝ} (hx : |x| ≤ 0.6) :
    |sin x - (x - x ^ 3 / 6 + x ^ 5 / 120 - x ^ 7 / 5040)| ≤ 1e-7 ∧
    |cos x - (1 - x ^ 2 / 2 + x ^ 4 / 24 - x ^ 6 / 720 + x ^ 8 / 40320)| ≤ 1e-7 := by
  have hn : ‖(x : ℂ) * Complex.I‖ = |x| := by simp
  have h := Complex.exp_bound' (x := (x : ℂ) * Complex.I) (n := 9) (by rw [hn]; norm_num at *; linarith)
  rw [hn] at h
  have hb : |x| ^ 9 / (Nat.factorial 9 : ℝ) * 2 ≤ 1e-7 := by
    have : |x| ^ 9 ≤ 0.6 ^ 9 := pow_le_pow_left₀ (abs_nonneg _) hx 9
    have hf : (Nat.factorial 9 : ℝ) = 362880 := by norm_num [Nat.factorial]
    rw [hf]
    norm_num at *
    linarith
  have e : Complex.exp ((x : ℂ) * Complex.I) - ∑ m ∈ Finset.range 9, ((x : ℂ) * Complex.I) ^ m / (Nat.factorial m : ℂ) =
      ((cos x - (1 - x ^ 2 / 2 + x ^ 4 / 24 - x ^ 6 / 720 + x ^ 8 / 40320) : ℝ) : ℂ) +
      ((sin x - (x - x ^ 3 / 6 + x ^ 5 / 120 - x ^ 7 / 5040) : ℝ) : ℂ) * Complex.I := by
    rw [Complex.exp_mul_I]
    have i2 : Complex.I ^ 2 = -1 := Complex.I_sq
    have i3 : Complex.I ^ 3 = -Complex.I := by rw [pow_succ, i2]; ring
    have i4 : Complex.I ^ 4 = 1 := by rw [pow_succ, i3]; linear_combination -i2
    have i5 : Complex.I ^ 5 = Complex.I := by rw [pow_succ, i4]; ring
    have i6 : Complex.I ^ 6 = -1 := by rw [pow_succ, i5]; linear_combination i2
    have i7 : Complex.I ^ 7 = -Complex.I := by rw [pow_succ, i6]; ring
    have i8 : Complex.I ^ 8 = 1 := by rw [pow_succ, i7]; linear_combination -i2
    simp only [Finset.sum_range_succ, Finset.sum_range_zero, mul_pow, i2, i3, i4, i5, i6, i7, i8]
    simp only [Nat.factorial]
    push_cast
    ring
  rw [e] at h
  exact parts (h.trans hb)

theorem ev_psin (d : List ℚ) (y : ℝ) : ev (psin d) y = ev d y - ev d y ^ 3 / 6 + ev d y ^ 5 / 120 - ev d y ^ 7 / 5040 := by
  simp only [psin, ev_pmul, ev_padd, ev_psc, ev]; push_cast; ring

theorem ev_pcos (d : List ℚ) (y : ℝ) :
    ev (pcos d) y = 1 - ev d y ^ 2 / 2 + ev d y ^ 4 / 24 - ev d y ^ 6 / 720 + ev d y ^ 8 / 40320 := by
  simp only [pcos, ev_pmul, ev_padd, ev_psc, ev]; push_cast; ring

theorem sin_near {d : List ℚ} (hd : l1 d ≤ 6 / 10) {y : ℝ} (hy : |y| ≤ 1) :
    |sin (ev d y) - ev (psin d) y| ≤ 1e-7 ∧ |cos (ev d y) - ev (pcos d) y| ≤ 1e-7 := by
  have h : |ev d y| ≤ 0.6 := by
    have := abs_ev_le d hy
    have h2 : (l1 d : ℝ) ≤ ((6 / 10 : ℚ) : ℝ) := by exact_mod_cast hd
    push_cast at h2
    norm_num at *
    linarith
  rw [ev_psin, ev_pcos]
  exact taylor8 h

end Verif.Lemmas.PolyQ
