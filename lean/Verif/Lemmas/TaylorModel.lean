import Mathlib.Tactic
import Mathlib.Analysis.SpecialFunctions.Trigonometric.Basic
import Mathlib.Analysis.Complex.Exponential
import Mathlib.Analysis.Real.Pi.Bounds
/-
Functions of two variables in [−1, 1] enclosed by a polynomial and a bound of the difference.  The polynomials have integer coefficients in units of
10⁻¹⁸ and total degree at most six; sums, products, sines and cosines of enclosed functions are computed and rounded, the roundings are added to
the bound.
-/
namespace Verif.Lemmas.TM

open Real

/-! Polynomials in one variable -/

/-- Value of a list of coefficients. -/
noncomputable def ev1 : List ℤ → ℝ → ℝ
  | [], _ => 0
  | c :: l, y => c + y * ev1 l y

def add1 : List ℤ → List ℤ → List ℤ
  | [], q => q
  | p, [] => p
  | a :: p, b :: q => (a + b) :: add1 p q

def smul1 (c : ℤ) (p : List ℤ) : List ℤ := p.map (c * ·)

/-- Sum of the absolute values of the coefficients. -/
def nrm1 : List ℤ → ℤ
  | [] => 0
  | c :: l => |c| + nrm1 l

theorem ev1_add (p q : List ℤ) (y : ℝ) : ev1 (add1 p q) y = ev1 p y + ev1 q y := by
  induction p generalizing q with
  | nil => simp [add1, ev1]
  | cons a p ih => cases q with
    | nil => simp [add1, ev1]
    | cons b q => simp only [add1, ev1, ih]; push_cast; ring

theorem ev1_smul (c : ℤ) (p : List ℤ) (y : ℝ) : ev1 (smul1 c p) y = c * ev1 p y := by
  induction p with
  | nil => simp [smul1, ev1]
  | cons a p ih =>
    have : smul1 c (a :: p) = c * a :: smul1 c p := rfl
    rw [this, ev1, ih, ev1]; push_cast; ring

theorem nrm1_nonneg (p : List ℤ) : 0 ≤ nrm1 p := by
  induction p with
  | nil => simp [nrm1]
  | cons a p ih => simp only [nrm1]; positivity

theorem abs_ev1 (p : List ℤ) {y : ℝ} (hy : |y| ≤ 1) : |ev1 p y| ≤ nrm1 p := by
  induction p with
  | nil => simp [nrm1, ev1]
  | cons a p ih =>
    simp only [nrm1, ev1]; push_cast
    refine (abs_add_le _ _).trans ?_
    have : |y * ev1 p y| ≤ |ev1 p y| := by rw [abs_mul]; exact mul_le_of_le_one_left (abs_nonneg _) hy
    linarith

/-- Division of the coefficients by m, those beyond the first n dropped. -/
def div1 (m : ℤ) : ℕ → List ℤ → List ℤ
  | _, [] => []
  | 0, _ => []
  | n + 1, c :: l => c / m :: div1 m n l

/-- What the division leaves. -/
def rem1 (m : ℤ) : ℕ → List ℤ → ℤ
  | _, [] => 0
  | 0, l => nrm1 l
  | n + 1, c :: l => |c % m| + rem1 m n l

theorem ev1_div (m : ℤ) (n : ℕ) (p : List ℤ) {y : ℝ} (hy : |y| ≤ 1) : |ev1 p y - m * ev1 (div1 m n p) y| ≤ rem1 m n p := by
  induction p generalizing n with
  | nil => simp [div1, rem1, ev1]
  | cons c l ih =>
    cases n with
    | zero => simp only [div1, rem1]; have := abs_ev1 (c :: l) hy; simpa [ev1] using this
    | succ n =>
      simp only [div1, rem1, ev1]; push_cast
      have h := ih n
      have hc : (c : ℝ) = m * ((c / m : ℤ) : ℝ) + ((c % m : ℤ) : ℝ) := by exact_mod_cast (Int.mul_ediv_add_emod c m).symm
      have e : (c : ℝ) + y * ev1 l y - m * (((c / m : ℤ) : ℝ) + y * ev1 (div1 m n l) y) = ((c % m : ℤ) : ℝ) + y * (ev1 l y - m * ev1 (div1 m n l) y) := by
        conv_lhs => rw [hc]
        ring
      rw [e]
      refine (abs_add_le _ _).trans ?_
      have : |y * (ev1 l y - m * ev1 (div1 m n l) y)| ≤ |ev1 l y - m * ev1 (div1 m n l) y| := by
        rw [abs_mul]; exact mul_le_of_le_one_left (abs_nonneg _) hy
      linarith

/-! Polynomials in two variables -/

noncomputable def ev2 : List (List ℤ) → ℝ → ℝ → ℝ
  | [], _, _ => 0
  | c :: l, x, y => ev1 c y + x * ev2 l x y

def add2 : List (List ℤ) → List (List ℤ) → List (List ℤ)
  | [], q => q
  | p, [] => p
  | a :: p, b :: q => add1 a b :: add2 p q

def smul2 (c : ℤ) (p : List (List ℤ)) : List (List ℤ) := p.map (smul1 c)

def nrm2 : List (List ℤ) → ℤ
  | [] => 0
  | c :: l => nrm1 c + nrm2 l

theorem ev2_add (p q : List (List ℤ)) (x y : ℝ) : ev2 (add2 p q) x y = ev2 p x y + ev2 q x y := by
  induction p generalizing q with
  | nil => simp [add2, ev2]
  | cons a p ih => cases q with
    | nil => simp [add2, ev2]
    | cons b q => simp only [add2, ev2, ih, ev1_add]; ring

theorem ev2_smul (c : ℤ) (p : List (List ℤ)) (x y : ℝ) : ev2 (smul2 c p) x y = c * ev2 p x y := by
  induction p with
  | nil => simp [smul2, ev2]
  | cons a p ih =>
    have : smul2 c (a :: p) = smul1 c a :: smul2 c p := rfl
    rw [this, ev2, ih, ev2, ev1_smul]; ring

theorem nrm2_nonneg (p : List (List ℤ)) : 0 ≤ nrm2 p := by
  induction p with
  | nil => simp [nrm2]
  | cons a p ih => have := nrm1_nonneg a; simp only [nrm2]; positivity

theorem abs_ev2 (p : List (List ℤ)) {x y : ℝ} (hx : |x| ≤ 1) (hy : |y| ≤ 1) : |ev2 p x y| ≤ nrm2 p := by
  induction p with
  | nil => simp [nrm2, ev2]
  | cons a p ih =>
    simp only [nrm2, ev2]; push_cast
    refine (abs_add_le _ _).trans ?_
    have h1 : |x * ev2 p x y| ≤ |ev2 p x y| := by rw [abs_mul]; exact mul_le_of_le_one_left (abs_nonneg _) hx
    have h2 := abs_ev1 a hy
    linarith

def div2 (m : ℤ) : ℕ → List (List ℤ) → List (List ℤ)
  | _, [] => []
  | 0, _ => []
  | n + 1, c :: l => div1 m (n + 1) c :: div2 m n l

def rem2 (m : ℤ) : ℕ → List (List ℤ) → ℤ
  | _, [] => 0
  | 0, l => nrm2 l
  | n + 1, c :: l => rem1 m (n + 1) c + rem2 m n l

theorem ev2_div (m : ℤ) (n : ℕ) (p : List (List ℤ)) {x y : ℝ} (hx : |x| ≤ 1) (hy : |y| ≤ 1) :
    |ev2 p x y - m * ev2 (div2 m n p) x y| ≤ rem2 m n p := by
  induction p generalizing n with
  | nil => simp [div2, rem2, ev2]
  | cons c l ih =>
    cases n with
    | zero => simp only [div2, rem2]; have := abs_ev2 (c :: l) hx hy; simpa [ev2] using this
    | succ n =>
      simp only [div2, rem2, ev2]; push_cast
      have h := ih n
      have h1 := ev1_div m (n + 1) c hy
      have e : ev1 c y + x * ev2 l x y - m * (ev1 (div1 m (n + 1) c) y + x * ev2 (div2 m n l) x y) =
          (ev1 c y - m * ev1 (div1 m (n + 1) c) y) + x * (ev2 l x y - m * ev2 (div2 m n l) x y) := by ring
      rw [e]
      refine (abs_add_le _ _).trans ?_
      have : |x * (ev2 l x y - m * ev2 (div2 m n l) x y)| ≤ |ev2 l x y - m * ev2 (div2 m n l) x y| := by
        rw [abs_mul]; exact mul_le_of_le_one_left (abs_nonneg _) hx
      linarith

/-! Products without the terms of high degree -/

def tmul1 : ℕ → List ℤ → List ℤ → List ℤ
  | _, [], _ => []
  | 0, _ :: _, _ => []
  | n + 1, a :: p, q => add1 (smul1 a (q.take (n + 1))) (0 :: tmul1 n p q)

/-- Bound of the terms left out. -/
def terr1 : ℕ → List ℤ → List ℤ → ℤ
  | _, [], _ => 0
  | 0, a :: p, q => nrm1 (a :: p) * nrm1 q
  | n + 1, a :: p, q => |a| * nrm1 (q.drop (n + 1)) + terr1 n p q

theorem ev1_take_drop (n : ℕ) (q : List ℤ) {y : ℝ} (hy : |y| ≤ 1) : |ev1 q y - ev1 (q.take n) y| ≤ nrm1 (q.drop n) := by
  induction q generalizing n with
  | nil => simp [ev1, nrm1]
  | cons a q ih =>
    cases n with
    | zero => have := abs_ev1 (a :: q) hy; simpa [ev1] using this
    | succ n =>
      simp only [List.take_succ_cons, List.drop_succ_cons, ev1]
      rw [show (a : ℝ) + y * ev1 q y - (a + y * ev1 (q.take n) y) = y * (ev1 q y - ev1 (q.take n) y) by ring, abs_mul]
      exact (mul_le_of_le_one_left (abs_nonneg _) hy).trans (ih n)

theorem ev1_tmul (n : ℕ) (p q : List ℤ) {y : ℝ} (hy : |y| ≤ 1) : |ev1 p y * ev1 q y - ev1 (tmul1 n p q) y| ≤ terr1 n p q := by
  induction p generalizing n with
  | nil => simp [tmul1, terr1, ev1]
  | cons a p ih =>
    cases n with
    | zero =>
      simp only [tmul1, terr1]
      rw [show ev1 [] y = 0 from rfl, sub_zero, abs_mul]; push_cast
      exact mul_le_mul (abs_ev1 _ hy) (abs_ev1 _ hy) (abs_nonneg _) ((abs_nonneg _).trans (abs_ev1 (a :: p) hy))
    | succ n =>
      simp only [tmul1, terr1, ev1_add, ev1_smul, ev1]; push_cast
      rw [show ((a : ℝ) + y * ev1 p y) * ev1 q y - (a * ev1 (q.take (n + 1)) y + (0 + y * ev1 (tmul1 n p q) y)) =
        a * (ev1 q y - ev1 (q.take (n + 1)) y) + y * (ev1 p y * ev1 q y - ev1 (tmul1 n p q) y) by ring]
      refine (abs_add_le _ _).trans (add_le_add ?_ ?_)
      · rw [abs_mul]; exact mul_le_mul_of_nonneg_left (ev1_take_drop _ _ hy) (abs_nonneg _)
      · rw [abs_mul]; exact (mul_le_of_le_one_left (abs_nonneg _) hy).trans (ih n)

def trow : ℕ → List ℤ → List (List ℤ) → List (List ℤ)
  | _, _, [] => []
  | 0, _, _ :: _ => []
  | n + 1, c, b :: q => tmul1 (n + 1) c b :: trow n c q

def erow : ℕ → List ℤ → List (List ℤ) → ℤ
  | _, _, [] => 0
  | 0, c, b :: q => nrm1 c * nrm2 (b :: q)
  | n + 1, c, b :: q => terr1 (n + 1) c b + erow n c q

theorem ev2_trow (n : ℕ) (c : List ℤ) (q : List (List ℤ)) {x y : ℝ} (hx : |x| ≤ 1) (hy : |y| ≤ 1) :
    |ev1 c y * ev2 q x y - ev2 (trow n c q) x y| ≤ erow n c q := by
  induction q generalizing n with
  | nil => simp [trow, erow, ev2]
  | cons b q ih =>
    cases n with
    | zero =>
      simp only [trow, erow]
      rw [show ev2 [] x y = 0 from rfl, sub_zero, abs_mul]; push_cast
      exact mul_le_mul (abs_ev1 _ hy) (abs_ev2 _ hx hy) (abs_nonneg _) ((abs_nonneg _).trans (abs_ev1 c hy))
    | succ n =>
      simp only [trow, erow, ev2]; push_cast
      rw [show ev1 c y * (ev1 b y + x * ev2 q x y) - (ev1 (tmul1 (n + 1) c b) y + x * ev2 (trow n c q) x y) =
        (ev1 c y * ev1 b y - ev1 (tmul1 (n + 1) c b) y) + x * (ev1 c y * ev2 q x y - ev2 (trow n c q) x y) by ring]
      refine (abs_add_le _ _).trans (add_le_add (ev1_tmul _ _ _ hy) ?_)
      rw [abs_mul]; exact (mul_le_of_le_one_left (abs_nonneg _) hx).trans (ih n)

def tmul2 : ℕ → List (List ℤ) → List (List ℤ) → List (List ℤ)
  | _, [], _ => []
  | 0, _ :: _, _ => []
  | n + 1, c :: p, q => add2 (trow (n + 1) c q) ([] :: tmul2 n p q)

def terr2 : ℕ → List (List ℤ) → List (List ℤ) → ℤ
  | _, [], _ => 0
  | 0, c :: p, q => nrm2 (c :: p) * nrm2 q
  | n + 1, c :: p, q => erow (n + 1) c q + terr2 n p q

theorem ev2_tmul (n : ℕ) (p q : List (List ℤ)) {x y : ℝ} (hx : |x| ≤ 1) (hy : |y| ≤ 1) :
    |ev2 p x y * ev2 q x y - ev2 (tmul2 n p q) x y| ≤ terr2 n p q := by
  induction p generalizing n with
  | nil => simp [tmul2, terr2, ev2]
  | cons c p ih =>
    cases n with
    | zero =>
      simp only [tmul2, terr2]
      rw [show ev2 [] x y = 0 from rfl, sub_zero, abs_mul]; push_cast
      exact mul_le_mul (abs_ev2 _ hx hy) (abs_ev2 _ hx hy) (abs_nonneg _) ((abs_nonneg _).trans (abs_ev2 (c :: p) hx hy))
    | succ n =>
      simp only [tmul2, terr2, ev2_add, ev2, ev1]; push_cast
      rw [show (ev1 c y + x * ev2 p x y) * ev2 q x y - (ev2 (trow (n + 1) c q) x y + (0 + x * ev2 (tmul2 n p q) x y)) =
        (ev1 c y * ev2 q x y - ev2 (trow (n + 1) c q) x y) + x * (ev2 p x y * ev2 q x y - ev2 (tmul2 n p q) x y) by ring]
      refine (abs_add_le _ _).trans (add_le_add (ev2_trow _ _ _ hx hy) ?_)
      rw [abs_mul]; exact (mul_le_of_le_one_left (abs_nonneg _) hx).trans (ih n)

/-! Enclosures -/

/-- The unit of the coefficients is 1/S. -/
def S : ℤ := 1000000000000000000

/-- A polynomial and a bound. -/
structure M where
  p : List (List ℤ)
  r : ℤ

/-- The function f is within the bound of the polynomial. -/
def Holds (a : M) (f : ℝ → ℝ → ℝ) : Prop := ∀ x y, |x| ≤ 1 → |y| ≤ 1 → |(S : ℝ) * f x y - ev2 a.p x y| ≤ a.r

/-- Bound of the function, in units. -/
def M.bd (a : M) : ℤ := nrm2 a.p + a.r

theorem Holds.bd {a : M} {f : ℝ → ℝ → ℝ} (h : Holds a f) {x y : ℝ} (hx : |x| ≤ 1) (hy : |y| ≤ 1) : |(S : ℝ) * f x y| ≤ a.bd := by
  have h1 := h x y hx hy
  have h2 := abs_ev2 a.p hx hy
  unfold M.bd; push_cast
  have := abs_add_le ((S : ℝ) * f x y - ev2 a.p x y) (ev2 a.p x y)
  rw [sub_add_cancel] at this
  linarith

theorem Holds.r_nonneg {a : M} {f : ℝ → ℝ → ℝ} (h : Holds a f) : (0 : ℝ) ≤ a.r := (abs_nonneg _).trans (h 0 0 (by simp) (by simp))

def M.add (a b : M) : M := ⟨add2 a.p b.p, a.r + b.r⟩

theorem Holds.add {a b : M} {f g : ℝ → ℝ → ℝ} (ha : Holds a f) (hb : Holds b g) : Holds (a.add b) (fun x y => f x y + g x y) := by
  intro x y hx hy
  simp only [M.add, ev2_add]; push_cast
  rw [show (S : ℝ) * (f x y + g x y) - (ev2 a.p x y + ev2 b.p x y) = (S * f x y - ev2 a.p x y) + (S * g x y - ev2 b.p x y) by ring]
  exact (abs_add_le _ _).trans (add_le_add (ha x y hx hy) (hb x y hx hy))

/-- Multiple by an integer. -/
def M.smul (c : ℤ) (a : M) : M := ⟨smul2 c a.p, |c| * a.r⟩

theorem Holds.smul {a : M} {f : ℝ → ℝ → ℝ} (c : ℤ) (ha : Holds a f) : Holds (a.smul c) (fun x y => c * f x y) := by
  intro x y hx hy
  simp only [M.smul, ev2_smul]; push_cast
  rw [show (S : ℝ) * (c * f x y) - c * ev2 a.p x y = c * (S * f x y - ev2 a.p x y) by ring, abs_mul]
  exact mul_le_mul_of_nonneg_left (ha x y hx hy) (abs_nonneg _)

/-- Quotient by a positive integer. -/
def M.quo (c : ℤ) (a : M) : M := ⟨div2 c 9 a.p, (a.r + rem2 c 9 a.p) / c + 1⟩

theorem Holds.quo {a : M} {f : ℝ → ℝ → ℝ} {c : ℤ} (hc : 0 < c) (ha : Holds a f) : Holds (a.quo c) (fun x y => f x y / c) := by
  intro x y hx hy
  have hc' : (0 : ℝ) < c := by exact_mod_cast hc
  simp only [M.quo]
  have h1 := ha x y hx hy
  have h2 := ev2_div c 9 a.p hx hy
  have h3 : ((a.r + rem2 c 9 a.p : ℤ) : ℝ) / c ≤ (((a.r + rem2 c 9 a.p) / c + 1 : ℤ) : ℝ) := by
    rw [div_le_iff₀ hc']
    have := Int.lt_ediv_add_one_mul_self (a.r + rem2 c 9 a.p) hc
    exact_mod_cast this.le
  refine le_trans ?_ h3
  rw [le_div_iff₀ hc']
  rw [← abs_of_pos hc', ← abs_mul, abs_of_pos hc']
  rw [show ((S : ℝ) * (f x y / c) - ev2 (div2 c 9 a.p) x y) * c = (S * f x y - ev2 a.p x y) + (ev2 a.p x y - c * ev2 (div2 c 9 a.p) x y) by
    field_simp; ring]
  push_cast
  exact (abs_add_le _ _).trans (add_le_add h1 h2)

/-- Product. -/
def M.mul (a b : M) : M :=
  let q := tmul2 7 a.p b.p
  ⟨div2 S 7 q, (a.bd * b.r + nrm2 b.p * a.r + terr2 7 a.p b.p + rem2 S 7 q) / S + 1⟩

theorem S_pos : (0 : ℝ) < S := by unfold S; norm_num

theorem Holds.mul {a b : M} {f g : ℝ → ℝ → ℝ} (ha : Holds a f) (hb : Holds b g) : Holds (a.mul b) (fun x y => f x y * g x y) := by
  intro x y hx hy
  simp only [M.mul]
  have h1 := ha x y hx hy
  have h2 := hb x y hx hy
  have h0 := ev2_tmul 7 a.p b.p hx hy
  have h3 := ev2_div S 7 (tmul2 7 a.p b.p) hx hy
  have h4 := ha.bd hx hy
  have h5 := abs_ev2 b.p hx hy
  generalize ev2 (div2 S 7 (tmul2 7 a.p b.p)) x y = Q at *
  generalize rem2 S 7 (tmul2 7 a.p b.p) = E at *
  generalize ev2 (tmul2 7 a.p b.p) x y = P at *
  generalize terr2 7 a.p b.p = E' at *
  have hr := ha.r_nonneg
  have hr' := hb.r_nonneg
  have h6 : ((a.bd * b.r + nrm2 b.p * a.r + E' + E : ℤ) : ℝ) / S ≤ (((a.bd * b.r + nrm2 b.p * a.r + E' + E) / S + 1 : ℤ) : ℝ) := by
    rw [div_le_iff₀ S_pos]
    have := Int.lt_ediv_add_one_mul_self (a.bd * b.r + nrm2 b.p * a.r + E' + E) (show 0 < S by decide)
    exact_mod_cast this.le
  refine le_trans ?_ h6
  rw [le_div_iff₀ S_pos, ← abs_of_pos S_pos, ← abs_mul, abs_of_pos S_pos]
  rw [show ((S : ℝ) * (f x y * g x y) - Q) * S = (S * f x y) * (S * g x y - ev2 b.p x y) + ev2 b.p x y * (S * f x y - ev2 a.p x y) +
    (ev2 a.p x y * ev2 b.p x y - P) + (P - S * Q) by ring]
  push_cast
  refine (abs_add_le _ _).trans (add_le_add ((abs_add_le _ _).trans (add_le_add ((abs_add_le _ _).trans (add_le_add ?_ ?_)) h0)) h3)
  · rw [abs_mul]; exact mul_le_mul h4 h2 (abs_nonneg _) ((abs_nonneg _).trans h4)
  · rw [abs_mul]; exact mul_le_mul h5 h1 (abs_nonneg _) ((abs_nonneg _).trans h5)

/-- A constant n/d. -/
def M.const (n d : ℤ) : M := ⟨[[n * S / d]], 1⟩

theorem holds_const (n : ℤ) {d : ℤ} (hd : 0 < d) : Holds (.const n d) (fun _ _ => (n : ℝ) / d) := by
  intro x y _ _
  have hd' : (0 : ℝ) < d := by exact_mod_cast hd
  simp only [M.const, ev2, ev1, mul_zero, add_zero]
  have h1 : (((n * S / d : ℤ)) : ℝ) ≤ (S : ℝ) * (n / d) := by
    rw [← mul_div_assoc, le_div_iff₀ hd']
    have := Int.ediv_mul_le (n * S) hd.ne'
    have : (((n * S / d : ℤ)) : ℝ) * d ≤ n * S := by exact_mod_cast this
    linarith
  have h2 : (S : ℝ) * (n / d) ≤ (((n * S / d : ℤ)) : ℝ) + 1 := by
    rw [← mul_div_assoc, div_le_iff₀ hd']
    have := (Int.lt_ediv_add_one_mul_self (n * S) hd).le
    have : (n : ℝ) * S ≤ ((((n * S / d : ℤ)) : ℝ) + 1) * d := by exact_mod_cast this
    linarith
  rw [abs_le]; push_cast; constructor <;> linarith

/-- The variables. -/
def M.X : M := ⟨[[], [S]], 0⟩
def M.Y : M := ⟨[[0, S]], 0⟩

theorem holds_X : Holds .X (fun x _ => x) := by
  intro x y _ _
  simp only [M.X, ev2, ev1]; push_cast; ring_nf; simp
theorem holds_Y : Holds .Y (fun _ y => y) := by
  intro x y _ _
  simp only [M.Y, ev2, ev1]; push_cast; ring_nf; simp

/-- The number of radians in a degree. -/
def M.degree : M := ⟨[[17453292519943295]], 1⟩

theorem holds_degree : Holds .degree (fun _ _ => π / 180) := by
  intro x y _ _
  simp only [M.degree, ev2, ev1, S]
  have := pi_gt_d20
  have := pi_lt_d20
  rw [abs_le]; push_cast; norm_num at *; constructor <;> linarith

theorem parts' {a b e : ℝ} (h : ‖(a : ℂ) + (b : ℂ) * Complex.I‖ ≤ e) : |b| ≤ e ∧ |a| ≤ e := by
  constructor
  · have := (Complex.abs_im_le_norm _).trans h
    simpa using this
  · have := (Complex.abs_re_le_norm _).trans h
    simpa using this

/-- The Taylor polynomials in nested form. -/
theorem taylor16 {x : ℝ} (hx : |x| ≤ 1) :
    |sin x - x * (1 - x * x / 6 * (1 - x * x / 20 * (1 - x * x / 42 * (1 - x * x / 72 * (1 - x * x / 110 * (1 - x * x / 156 * (1 - x * x / 210)))))))| ≤ 6e-15 ∧
    |cos x - (1 - x * x / 2 * (1 - x * x / 12 * (1 - x * x / 30 * (1 - x * x / 56 * (1 - x * x / 90 * (1 - x * x / 132 * (1 - x * x / 182 * (1 - x * x / 240))))))))| ≤ 6e-15 := by
  have hn : ‖(x : ℂ) * Complex.I‖ = |x| := by simp
  have h := Complex.exp_bound' (x := (x : ℂ) * Complex.I) (n := 17) (by rw [hn]; norm_num at *; linarith)
  rw [hn] at h
  have hb : |x| ^ 17 / (Nat.factorial 17 : ℝ) * 2 ≤ 6e-15 := by
    have : |x| ^ 17 ≤ 1 ^ 17 := pow_le_pow_left₀ (abs_nonneg _) hx 17
    have hf : (Nat.factorial 17 : ℝ) = 355687428096000 := by norm_num [Nat.factorial]
    rw [hf]
    norm_num at *
    linarith
  have e : Complex.exp ((x : ℂ) * Complex.I) - ∑ m ∈ Finset.range 17, ((x : ℂ) * Complex.I) ^ m / (Nat.factorial m : ℂ) =
      ((cos x - (1 - x * x / 2 * (1 - x * x / 12 * (1 - x * x / 30 * (1 - x * x / 56 * (1 - x * x / 90 * (1 - x * x / 132 * (1 - x * x / 182 * (1 - x * x / 240)))))))) : ℝ) : ℂ) +
      ((sin x - x * (1 - x * x / 6 * (1 - x * x / 20 * (1 - x * x / 42 * (1 - x * x / 72 * (1 - x * x / 110 * (1 - x * x / 156 * (1 - x * x / 210))))))) : ℝ) : ℂ) * Complex.I := by
    rw [Complex.exp_mul_I]
    have i2 : Complex.I ^ 2 = -1 := Complex.I_sq
    have i3 : Complex.I ^ 3 = -Complex.I := by rw [pow_succ, i2]; ring
    have i4 : Complex.I ^ 4 = 1 := by rw [pow_succ, i3]; linear_combination -i2
    have i5 : Complex.I ^ 5 = Complex.I := by rw [pow_succ, i4]; ring
    have i6 : Complex.I ^ 6 = -1 := by rw [pow_succ, i5]; linear_combination i2
    have i7 : Complex.I ^ 7 = -Complex.I := by rw [pow_succ, i6]; ring
    have i8 : Complex.I ^ 8 = 1 := by rw [pow_succ, i7]; linear_combination -i2
    have i9 : Complex.I ^ 9 = Complex.I := by rw [pow_succ, i8]; ring
    have i10 : Complex.I ^ 10 = -1 := by rw [pow_succ, i9]; linear_combination i2
    have i11 : Complex.I ^ 11 = -Complex.I := by rw [pow_succ, i10]; ring
    have i12 : Complex.I ^ 12 = 1 := by rw [pow_succ, i11]; linear_combination -i2
    have i13 : Complex.I ^ 13 = Complex.I := by rw [pow_succ, i12]; ring
    have i14 : Complex.I ^ 14 = -1 := by rw [pow_succ, i13]; linear_combination i2
    have i15 : Complex.I ^ 15 = -Complex.I := by rw [pow_succ, i14]; ring
    have i16 : Complex.I ^ 16 = 1 := by rw [pow_succ, i15]; linear_combination -i2
    simp only [Finset.sum_range_succ, Finset.sum_range_zero, mul_pow, i2, i3, i4, i5, i6, i7, i8, i9, i10, i11, i12, i13, i14, i15, i16]
    simp only [Nat.factorial]
    push_cast
    ring
  rw [e] at h
  exact parts' (h.trans hb)

/-- 1 − w/n · a. -/
def M.nest (w : M) (n : ℤ) (a : M) : M := (M.const 1 1).add (((w.quo n).mul a).smul (-1))

theorem Holds.nest {w a : M} {f g : ℝ → ℝ → ℝ} {n : ℤ} (hn : 0 < n) (hw : Holds w f) (ha : Holds a g) :
    Holds (w.nest n a) (fun x y => 1 - f x y / n * g x y) := by
  have h := (holds_const 1 (d := 1) (by decide)).add (((hw.quo hn).mul ha).smul (-1))
  have e : (fun x y => 1 - f x y / n * g x y) = (fun x y => ((1 : ℤ) : ℝ) / ((1 : ℤ) : ℝ) + ((-1 : ℤ) : ℝ) * (f x y / n * g x y)) := by
    funext x y; push_cast; ring
  rw [e]; exact h

def M.sin (a : M) : M :=
  let w := a.mul a
  let q := a.mul (w.nest 6 (w.nest 20 (w.nest 42 (w.nest 72 (w.nest 110 (w.nest 156 (w.nest 210 (M.const 1 1))))))))
  ⟨q.p, q.r + 6000⟩

def M.cos (a : M) : M :=
  let w := a.mul a
  let q := w.nest 2 (w.nest 12 (w.nest 30 (w.nest 56 (w.nest 90 (w.nest 132 (w.nest 182 (w.nest 240 (M.const 1 1))))))))
  ⟨q.p, q.r + 6000⟩

theorem Holds.small {a : M} {f : ℝ → ℝ → ℝ} (h : Holds a f) (hb : a.bd ≤ S) {x y : ℝ} (hx : |x| ≤ 1) (hy : |y| ≤ 1) : |f x y| ≤ 1 := by
  have h1 := h.bd hx hy
  rw [abs_mul, abs_of_pos S_pos] at h1
  have h2 : (a.bd : ℝ) ≤ S := by exact_mod_cast hb
  by_contra hc
  push Not at hc
  have := S_pos
  nlinarith

theorem Holds.sin {a : M} {f : ℝ → ℝ → ℝ} (h : Holds a f) (hb : a.bd ≤ S) : Holds a.sin (fun x y => Real.sin (f x y)) := by
  have w := h.mul h
  have one : Holds (M.const 1 1) (fun _ _ => (1 : ℝ)) := by simpa using holds_const 1 (d := 1) (by decide)
  have q := h.mul (w.nest (n := 6) (by decide) (w.nest (n := 20) (by decide) (w.nest (n := 42) (by decide) (w.nest (n := 72) (by decide)
    (w.nest (n := 110) (by decide) (w.nest (n := 156) (by decide) (w.nest (n := 210) (by decide) one)))))))
  intro x y hx hy
  have q1 := q x y hx hy
  have t := (taylor16 (h.small hb hx hy)).1
  simp only [M.sin]
  push_cast at q1 ⊢
  rw [mul_one] at q1
  generalize ev2 _ x y = Q at *
  generalize f x y * (1 - f x y * f x y / 6 * _) = P at *
  have : |(S : ℝ) * (Real.sin (f x y) - P)| ≤ 6000 := by
    rw [abs_mul, abs_of_pos S_pos]
    calc (S : ℝ) * |Real.sin (f x y) - P| ≤ S * 6e-15 := by gcongr; exact S_pos.le
      _ ≤ 6000 := by unfold S; norm_num
  rw [show (S : ℝ) * Real.sin (f x y) - Q = (S * P - Q) + S * (Real.sin (f x y) - P) by ring]
  exact (abs_add_le _ _).trans (add_le_add q1 this)

theorem Holds.cos {a : M} {f : ℝ → ℝ → ℝ} (h : Holds a f) (hb : a.bd ≤ S) : Holds a.cos (fun x y => Real.cos (f x y)) := by
  have w := h.mul h
  have one : Holds (M.const 1 1) (fun _ _ => (1 : ℝ)) := by simpa using holds_const 1 (d := 1) (by decide)
  have q := w.nest (n := 2) (by decide) (w.nest (n := 12) (by decide) (w.nest (n := 30) (by decide) (w.nest (n := 56) (by decide)
    (w.nest (n := 90) (by decide) (w.nest (n := 132) (by decide) (w.nest (n := 182) (by decide) (w.nest (n := 240) (by decide) one)))))))
  intro x y hx hy
  have q1 := q x y hx hy
  have t := (taylor16 (h.small hb hx hy)).2
  simp only [M.cos]
  push_cast at q1 ⊢
  rw [mul_one] at q1
  generalize ev2 _ x y = Q at *
  generalize 1 - f x y * f x y / 2 * _ = P at *
  have : |(S : ℝ) * (Real.cos (f x y) - P)| ≤ 6000 := by
    rw [abs_mul, abs_of_pos S_pos]
    calc (S : ℝ) * |Real.cos (f x y) - P| ≤ S * 6e-15 := by gcongr; exact S_pos.le
      _ ≤ 6000 := by unfold S; norm_num
  rw [show (S : ℝ) * Real.cos (f x y) - Q = (S * P - Q) + S * (Real.cos (f x y) - P) by ring]
  exact (abs_add_le _ _).trans (add_le_add q1 this)

/-! Expressions: enclosures computed from the expression -/

/-- Expressions in two variables and in functions given by their number. -/
inductive Ex where
  | X | Y | degree
  | const (n d : ℤ)
  | atom (i : ℕ)
  | add (a b : Ex)
  | mul (a b : Ex)
  | sin (a : Ex)
  | cos (a : Ex)

namespace Ex

/-- The value. -/
noncomputable def val (ρ : ℕ → ℝ → ℝ → ℝ) : Ex → ℝ → ℝ → ℝ
  | X, x, _ => x
  | Y, _, y => y
  | degree, _, _ => π / 180
  | const n d, _, _ => (n : ℝ) / d
  | atom i, x, y => ρ i x y
  | add a b, x, y => a.val ρ x y + b.val ρ x y
  | mul a b, x, y => a.val ρ x y * b.val ρ x y
  | sin a, x, y => Real.sin (a.val ρ x y)
  | cos a, x, y => Real.cos (a.val ρ x y)

/-- The enclosure. -/
def tm (σ : ℕ → M) : Ex → M
  | X => .X
  | Y => .Y
  | degree => .degree
  | const n d => .const n d
  | atom i => σ i
  | add a b => (a.tm σ).add (b.tm σ)
  | mul a b => (a.tm σ).mul (b.tm σ)
  | sin a => (a.tm σ).sin
  | cos a => (a.tm σ).cos

/-- The arguments of sine and cosine are at most one, denominators are positive. -/
def ok (σ : ℕ → M) : Ex → Bool
  | X => true
  | Y => true
  | degree => true
  | const _ d => decide (0 < d)
  | atom _ => true
  | add a b => a.ok σ && b.ok σ
  | mul a b => a.ok σ && b.ok σ
  | sin a => a.ok σ && decide ((a.tm σ).bd ≤ S)
  | cos a => a.ok σ && decide ((a.tm σ).bd ≤ S)

theorem holds {ρ : ℕ → ℝ → ℝ → ℝ} {σ : ℕ → M} (hσ : ∀ i, Holds (σ i) (ρ i)) {e : Ex} (h : e.ok σ = true) : Holds (e.tm σ) (e.val ρ) := by
  induction e with
  | X => exact holds_X
  | Y => exact holds_Y
  | degree => exact holds_degree
  | const n d => exact holds_const n (by simpa [ok] using h)
  | atom i => exact hσ i
  | add a b iha ihb => simp only [ok, Bool.and_eq_true] at h; exact (iha h.1).add (ihb h.2)
  | mul a b iha ihb => simp only [ok, Bool.and_eq_true] at h; exact (iha h.1).mul (ihb h.2)
  | sin a ih => simp only [ok, Bool.and_eq_true, decide_eq_true_eq] at h; exact (ih h.1).sin h.2
  | cos a ih => simp only [ok, Bool.and_eq_true, decide_eq_true_eq] at h; exact (ih h.1).cos h.2

def neg (a : Ex) : Ex := mul (const (-1) 1) a
def sub (a b : Ex) : Ex := add a b.neg

theorem val_neg (ρ : ℕ → ℝ → ℝ → ℝ) (a : Ex) (x y : ℝ) : a.neg.val ρ x y = -a.val ρ x y := by simp [neg, val]
theorem val_sub (ρ : ℕ → ℝ → ℝ → ℝ) (a b : Ex) (x y : ℝ) : (a.sub b).val ρ x y = a.val ρ x y - b.val ρ x y := by
  simp only [sub, val, val_neg]; ring

end Ex

/-! Sines and cosines of angles as functions given by number: 2i and 2i + 1 for the angle i -/

/-- No functions given. -/
def σ0 : ℕ → M := fun _ => ⟨[], 0⟩
def ρ0 : ℕ → ℝ → ℝ → ℝ := fun _ _ _ => 0
theorem holds0 (i : ℕ) : Holds (σ0 i) (ρ0 i) := by intro x y _ _; simp [σ0, ρ0, ev2]

/-- Computed enclosures agree with the listed ones. -/
def checkAngles : List Ex → List (M × M) → Bool
  | [], _ => true
  | _ :: _, [] => false
  | a :: as, m :: ms => a.ok σ0 && decide ((a.tm σ0).bd ≤ S) && decide ((a.sin.tm σ0).p = m.1.p) && decide ((a.sin.tm σ0).r ≤ m.1.r) &&
      decide ((a.cos.tm σ0).p = m.2.p) && decide ((a.cos.tm σ0).r ≤ m.2.r) && checkAngles as ms

/-- The listed enclosures by number. -/
def σL : List (M × M) → ℕ → M
  | [], _ => ⟨[], 0⟩
  | m :: _, 0 => m.1
  | m :: _, 1 => m.2
  | _ :: ms, n + 2 => σL ms n

/-- The functions by number. -/
noncomputable def ρL : List Ex → ℕ → ℝ → ℝ → ℝ
  | [], _, _, _ => 0
  | a :: _, 0, x, y => Real.sin (a.val ρ0 x y)
  | a :: _, 1, x, y => Real.cos (a.val ρ0 x y)
  | _ :: as, n + 2, x, y => ρL as n x y

theorem Holds.weaken {a b : M} {f : ℝ → ℝ → ℝ} (h : Holds a f) (hp : a.p = b.p) (hr : a.r ≤ b.r) : Holds b f := by
  intro x y hx hy
  rw [← hp]
  exact (h x y hx hy).trans (by exact_mod_cast hr)

theorem holdsL (as : List Ex) (ms : List (M × M)) (hl : as.length = ms.length) (h : checkAngles as ms = true) (i : ℕ) :
    Holds (σL ms i) (ρL as i) := by
  induction as generalizing ms i with
  | nil =>
    have : ms = [] := by rw [← List.length_eq_zero_iff, ← hl]; rfl
    subst this
    intro x y _ _; simp [σL, ρL, ev2]
  | cons a as ih =>
    cases ms with
    | nil => simp at hl
    | cons m ms =>
      simp only [checkAngles, Bool.and_eq_true, decide_eq_true_eq] at h
      obtain ⟨⟨⟨⟨⟨⟨h1, h2⟩, h3⟩, h4⟩, h5⟩, h6⟩, h7⟩ := h
      have ha := Ex.holds holds0 h1
      match i with
      | 0 => exact (ha.sin h2).weaken h3 h4
      | 1 => exact (ha.cos h2).weaken h5 h6
      | n + 2 => exact ih ms (by simpa using hl) h7 n

/-- Three expressions. -/
abbrev Ex3 := Ex × Ex × Ex

namespace Ex3

/-- Turns; the arguments are the sine and cosine of the angle. -/
def rz (s c : Ex) (v : Ex3) : Ex3 := ((c.mul v.1).sub (s.mul v.2.1), (s.mul v.1).add (c.mul v.2.1), v.2.2)
def rx (s c : Ex) (v : Ex3) : Ex3 := (v.1, (c.mul v.2.1).sub (s.mul v.2.2), (s.mul v.2.1).add (c.mul v.2.2))
def ry (s c : Ex) (v : Ex3) : Ex3 := ((c.mul v.1).add (s.mul v.2.2), v.2.1, (c.mul v.2.2).sub (s.mul v.1))

def ok (σ : ℕ → M) (v : Ex3) : Bool := v.1.ok σ && v.2.1.ok σ && v.2.2.ok σ

def sub (v w : Ex3) : Ex3 := (v.1.sub w.1, v.2.1.sub w.2.1, v.2.2.sub w.2.2)

/-- Square of the bound of the length, in squares of the unit. -/
def bd (σ : ℕ → M) (v : Ex3) : ℤ := (v.1.tm σ).bd ^ 2 + (v.2.1.tm σ).bd ^ 2 + (v.2.2.tm σ).bd ^ 2

def e0 : Ex3 := (.const 1 1, .const 0 1, .const 0 1)
def e1 : Ex3 := (.const 0 1, .const 1 1, .const 0 1)
def e2 : Ex3 := (.const 0 1, .const 0 1, .const 1 1)

end Ex3

end Verif.Lemmas.TM
