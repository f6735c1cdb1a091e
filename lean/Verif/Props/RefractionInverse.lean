import Verif.Props.Refraction
import Verif.Lemmas.PolyComp
import Verif.Lemmas.TrigNum
/-
C176: the formulas for the refraction from the apparent and from the true altitude undo each other.
-/
namespace Verif.Props

open Real Verif.Model Verif.Model.Refraction Verif.Lemmas Verif.Lemmas.PolyQ

/-! Positive polynomials on an interval -/

/-- A polynomial positive on [a − r, a + r], by its coefficients about the centre. -/
def polyCellOK (p : List ℚ) (a r : ℚ) : Bool :=
  match pcomp p [a, r] with
  | [] => false
  | c :: l => decide (l1 l < c)

theorem cell_pos {p : List ℚ} {a r : ℚ} (hr : 0 < r) (h : polyCellOK p a r = true) {x : ℝ} (hx : |x - a| ≤ r) : 0 < ev p x := by
  have hr' : (0 : ℝ) < r := by exact_mod_cast hr
  have e : ev [a, r] ((x - a) / r) = x := by simp [ev]; field_simp; ring
  have hy : |(x - a) / r| ≤ 1 := by rw [abs_div, abs_of_pos hr']; exact (div_le_one hr').2 hx
  rw [← e, ← ev_pcomp]
  unfold polyCellOK at h
  generalize (x - a) / r = y at *
  cases hp : pcomp p [a, r] with
  | nil => rw [hp] at h; simp at h
  | cons c l =>
    rw [hp] at h
    have h1 : (l1 l : ℝ) < c := by exact_mod_cast of_decide_eq_true h
    have h2 := abs_ev_le l hy
    have h3 : |y * ev l y| ≤ |ev l y| := by rw [abs_mul]; exact mul_le_of_le_one_left (abs_nonneg _) hy
    simp only [ev]
    have := neg_abs_le (y * ev l y)
    linarith

/-- Cells side by side from 0. -/
theorem cells_pos {p : List ℚ} {r : ℚ} {n : ℕ} (hr : 0 < r) (h : ∀ i < n, polyCellOK p ((2 * i + 1) * r) r = true) {x : ℝ} (h0 : 0 ≤ x) (h1 : x ≤ 2 * n * r) (hn : 0 < n) :
    0 < ev p x := by
  have hr' : (0 : ℝ) < r := by exact_mod_cast hr
  have hq : 0 ≤ x / (2 * r) := by positivity
  have f1 := Nat.floor_le hq
  have f2 := Nat.lt_floor_add_one (x / (2 * r))
  rw [le_div_iff₀ (by positivity)] at f1
  rw [div_lt_iff₀ (by positivity)] at f2
  rcases Nat.lt_or_ge ⌊x / (2 * r)⌋₊ n with hi | hi
  · refine cell_pos hr (h _ hi) ?_
    push_cast
    rw [abs_le]; constructor <;> nlinarith
  · refine cell_pos hr (h (n - 1) (by omega)) ?_
    have hi' : (n : ℝ) ≤ ⌊x / (2 * (r : ℝ))⌋₊ := by exact_mod_cast hi
    have : (n : ℝ) * (2 * r) ≤ x := le_trans (mul_le_mul_of_nonneg_right hi' (by positivity)) f1
    have hx : x = 2 * n * r := by linarith
    push_cast [Nat.cast_sub (show 1 ≤ n by omega)]
    rw [hx, abs_le]; constructor <;> nlinarith

/-! Cotangent of a small angle -/

theorem cot_bounds {u : ℝ} (h0 : 0 < u) (h1 : u ≤ 0.31) :
    1 / u - u / 3 - 0.078 * u ^ 2 ≤ cos u / sin u ∧ cos u / sin u ≤ 1 / u - u / 3 := by
  have s0 : 0 < sin u := sin_pos_of_pos_of_lt_pi h0 (by linarith [pi_gt_three])
  have c1 := cos_quartic h0.le (by linarith : u ≤ 2)
  have s1 := sin_ge_sub_cube h0.le
  have s2 := (abs_le.1 (sin_bound (x := u) (by rw [abs_of_pos h0]; linarith))).2
  have c2 := one_sub_sq_div_two_le_cos (x := u)
  rw [abs_of_pos h0] at s2
  have u2 : 0 < u ^ 2 := by positivity
  have u2' : u ^ 2 ≤ 0.31 ^ 2 := by gcongr
  constructor
  · rw [le_div_iff₀ s0]
    have k : 0 ≤ 1 - u ^ 2 / 3 - 0.078 * u ^ 3 := by
      have : u ^ 3 ≤ 0.31 ^ 3 := by gcongr
      norm_num at *; linarith
    have e : (1 / u - u / 3 - 0.078 * u ^ 2) * sin u = (1 - u ^ 2 / 3 - 0.078 * u ^ 3) * (sin u / u) := by field_simp
    rw [e]
    have m : sin u / u ≤ 1 - u ^ 2 / 6 + 5 / 96 * u ^ 3 := by
      rw [div_le_iff₀ h0]; nlinarith
    refine (mul_le_mul_of_nonneg_left m k).trans (le_trans ?_ c2)
    have u3 : 0 < u ^ 3 := by positivity
    have u4 : u ^ 4 ≤ 0.31 * u ^ 3 := by nlinarith
    have u5 : u ^ 5 ≤ 0.31 * 0.31 * u ^ 3 := by nlinarith
    have u6 : 0 < u ^ 6 := by positivity
    nlinarith
  · rw [div_le_iff₀ s0]
    have e : (1 / u - u / 3) * sin u = (1 - u ^ 2 / 3) * (sin u / u) := by field_simp
    rw [e]
    have m : 1 - u ^ 2 / 6 ≤ sin u / u := by
      rw [le_div_iff₀ h0]; nlinarith
    have k : 0 ≤ 1 - u ^ 2 / 3 := by norm_num at *; linarith
    refine le_trans ?_ (mul_le_mul_of_nonneg_left m k)
    nlinarith [sq_nonneg (u ^ 2)]

/-! The curve in the plane of altitude and refraction, as a rational function -/

def rf_d0 : ℚ := 0.01745329251
def rf_d1 : ℚ := 0.01745329252
def rf_N : List ℚ := [10.3, 5.11, 1]
def rf_D : List ℚ := [5.11, 1]
def rf_P : List ℚ := padd (psc 3 (pmul rf_D rf_D)) (psc (-(rf_d0 ^ 2)) (pmul rf_N rf_N))
def rf_Q : List ℚ := psc (3 * rf_d0) (pmul rf_N rf_D)
def rf_K : List ℚ := padd (pmul [4.4, 1] rf_Q) (psc 0.017 rf_P)
def rf_A : List ℚ := padd (psc 0.017 (pmul (pmul rf_P rf_K) rf_D)) (padd (psc 7.31 (pmul (pmul rf_Q rf_Q) rf_D)) (psc (-10.3) (pmul rf_Q rf_K)))
def rf_B (s : ℚ) : List ℚ := padd (pmul rf_Q rf_Q) (padd (psc 1.02 (pmul rf_P rf_P)) (psc (s / 15) (pmul rf_P rf_Q)))
def rf_QKD : List ℚ := pmul rf_Q (pmul rf_K rf_D)
def rf_P1 : List ℚ := padd (psc (1 / 15 - 1 / 10000) (pmul (pmul rf_Q rf_Q) rf_QKD)) (padd (psc (-0.02) (pmul (pmul rf_P rf_Q) rf_QKD)) (psc (-rf_d0) (pmul rf_A (rf_B (-1)))))
def rf_P2 : List ℚ := padd (psc (1 / 15 - 1 / 100) (pmul (pmul rf_Q rf_Q) rf_QKD)) (padd (psc 0.02 (pmul (pmul rf_P rf_Q) rf_QKD)) (psc rf_d1 (pmul rf_A (rf_B 1))))
def rf_P3 : List ℚ := psc (-1) rf_A
def rf_P4 : List ℚ := padd rf_A (psc 0.1 rf_QKD)

theorem rf_P1_cells : ∀ i < 132, polyCellOK rf_P1 ((2 * (i : ℕ) + 1) * (1 / 16)) (1 / 16) = true := by decide +kernel
theorem rf_P2_cells : ∀ i < 66, polyCellOK rf_P2 ((2 * (i : ℕ) + 1) * (1 / 8)) (1 / 8) = true := by decide +kernel
theorem rf_P3_cells : ∀ i < 66, polyCellOK rf_P3 ((2 * (i : ℕ) + 1) * (1 / 8)) (1 / 8) = true := by decide +kernel
theorem rf_P4_cells : ∀ i < 66, polyCellOK rf_P4 ((2 * (i : ℕ) + 1) * (1 / 8)) (1 / 8) = true := by decide +kernel
theorem rf_P_cells : ∀ i < 33, polyCellOK rf_P ((2 * (i : ℕ) + 1) * (1 / 4)) (1 / 4) = true := by decide +kernel

/-- The three rational inequalities, for altitudes (in degrees) up to 16.5. -/
theorem curve_facts {x d0 d1 D N P Q K : ℝ} (hd0 : d0 = 0.01745329251) (hd1 : d1 = 0.01745329252) (h0 : 0 ≤ x) (h1 : x ≤ 16.5)
    (hD : D = x + 5.11) (hN : N = x ^ 2 + 5.11 * x + 10.3) (hP : P = 3 * D ^ 2 - d0 ^ 2 * N ^ 2) (hQ : Q = 3 * d0 * (N * D)) (hK : K = (x + 4.4) * Q + 0.017 * P) :
    0 < D ∧ 0 < N ∧ 0 < P ∧ 0 < Q ∧ 0 < K ∧
    0 < (1 / 15 - 1 / 10000) * (Q * Q * (Q * (K * D))) - 0.02 * (P * Q * (Q * (K * D)))
      - d0 * ((0.017 * (P * K * D) + 7.31 * (Q * Q * D) - 10.3 * (Q * K)) * (Q * Q + 1.02 * (P * P) - 1 / 15 * (P * Q))) ∧
    0 < (1 / 15 - 1 / 100) * (Q * Q * (Q * (K * D))) + 0.02 * (P * Q * (Q * (K * D)))
      + d1 * ((0.017 * (P * K * D) + 7.31 * (Q * Q * D) - 10.3 * (Q * K)) * (Q * Q + 1.02 * (P * P) + 1 / 15 * (P * Q))) ∧
    0.017 * (P * K * D) + 7.31 * (Q * Q * D) - 10.3 * (Q * K) < 0 ∧
    0 < 0.017 * (P * K * D) + 7.31 * (Q * Q * D) - 10.3 * (Q * K) + 0.1 * (Q * (K * D)) := by
  have eD : ev rf_D x = D := by simp only [rf_D, ev, hD]; push_cast; ring
  have eN : ev rf_N x = N := by simp only [rf_N, ev, hN]; push_cast; ring
  have eP : ev rf_P x = P := by
    simp only [rf_P, ev_padd, ev_psc, ev_pmul, eD, eN, hP, hd0, rf_d0]; push_cast; ring
  have eQ : ev rf_Q x = Q := by
    simp only [rf_Q, ev_psc, ev_pmul, eD, eN, hQ, hd0, rf_d0]; push_cast; ring
  have eK : ev rf_K x = K := by
    simp only [rf_K, ev_padd, ev_psc, ev_pmul, eP, eQ, hK]; simp only [ev]; push_cast; ring
  have eA : ev rf_A x = 0.017 * (P * K * D) + 7.31 * (Q * Q * D) - 10.3 * (Q * K) := by
    simp only [rf_A, ev_padd, ev_psc, ev_pmul, eP, eQ, eK, eD]; push_cast; ring
  have eB : ∀ s : ℚ, ev (rf_B s) x = Q * Q + 1.02 * (P * P) + s / 15 * (P * Q) := by
    intro s
    simp only [rf_B, ev_padd, ev_psc, ev_pmul, eP, eQ]; push_cast; ring
  have eR : ev rf_QKD x = Q * (K * D) := by simp only [rf_QKD, ev_pmul, eQ, eK, eD]
  have p1 := cells_pos (x := x) (by norm_num) rf_P1_cells h0 (by push_cast; norm_num at *; linarith) (by norm_num)
  have p2 := cells_pos (x := x) (by norm_num) rf_P2_cells h0 (by push_cast; norm_num at *; linarith) (by norm_num)
  have p3 := cells_pos (x := x) (by norm_num) rf_P3_cells h0 (by push_cast; norm_num at *; linarith) (by norm_num)
  have p4 := cells_pos (x := x) (by norm_num) rf_P4_cells h0 (by push_cast; norm_num at *; linarith) (by norm_num)
  have p5 := cells_pos (x := x) (by norm_num) rf_P_cells h0 (by push_cast; norm_num at *; linarith) (by norm_num)
  rw [eP] at p5
  have D0 : 0 < D := by rw [hD]; linarith
  have N0 : 0 < N := by rw [hN]; positivity
  have Q0 : 0 < Q := by rw [hQ, hd0]; positivity
  have K0 : 0 < K := by rw [hK]; positivity
  refine ⟨D0, N0, p5, Q0, K0, ?_, ?_, ?_, ?_⟩
  · simp only [rf_P1, ev_padd, ev_psc, ev_pmul, eA, eB, eR, eP, eQ] at p1
    refine lt_of_lt_of_eq p1 ?_
    rw [hd0]; simp only [rf_d0]; push_cast; ring
  · simp only [rf_P2, ev_padd, ev_psc, ev_pmul, eA, eB, eR, eP, eQ] at p2
    refine lt_of_lt_of_eq p2 ?_
    rw [hd1]; simp only [rf_d1]; push_cast; ring
  · simp only [rf_P3, ev_psc, eA] at p3
    push_cast at p3; linarith
  · simp only [rf_P4, ev_padd, ev_psc, eA, eR] at p4
    push_cast at p4
    refine lt_of_lt_of_eq p4 ?_
    ring

/-- The same, for the cotangent `c` and the difference `W` (in degrees) of the arguments of the two formulas. -/
theorem curve_rational {x c W : ℝ} (h0 : 0 ≤ x) (h1 : x ≤ 16.5)
    (hc : c = 1 / (0.01745329251 * lifted 10.3 5.11 x) - 0.01745329251 * lifted 10.3 5.11 x / 3)
    (hW : W = 0.017 * c + 7.31 / (x + 0.017 * c + 4.4) - 10.3 / (x + 5.11)) :
    0 < c ∧ W < 0 ∧ -0.1 < W ∧
    0 < 1 / 15 - 1 / 10000 - 0.02 * c - 0.01745329251 * W * (1 + 1.02 * c ^ 2 - 1 / 15 * c) ∧
    0 < 1 / 15 - 1 / 100 + 0.02 * c + 0.01745329252 * W * (1 + 1.02 * c ^ 2 + 1 / 15 * c) := by
  obtain ⟨d0, hd0⟩ : ∃ d0 : ℝ, d0 = 0.01745329251 := ⟨_, rfl⟩
  obtain ⟨d1, hd1⟩ : ∃ d1 : ℝ, d1 = 0.01745329252 := ⟨_, rfl⟩
  obtain ⟨D, hD⟩ : ∃ D : ℝ, D = x + 5.11 := ⟨_, rfl⟩
  obtain ⟨N, hN⟩ : ∃ N : ℝ, N = x ^ 2 + 5.11 * x + 10.3 := ⟨_, rfl⟩
  obtain ⟨P, hP⟩ : ∃ P : ℝ, P = 3 * D ^ 2 - d0 ^ 2 * N ^ 2 := ⟨_, rfl⟩
  obtain ⟨Q, hQ⟩ : ∃ Q : ℝ, Q = 3 * d0 * (N * D) := ⟨_, rfl⟩
  obtain ⟨K, hK⟩ : ∃ K : ℝ, K = (x + 4.4) * Q + 0.017 * P := ⟨_, rfl⟩
  obtain ⟨D0, N0, P0, Q0, K0, q1, q2, q3, q4⟩ := curve_facts hd0 hd1 h0 h1 hD hN hP hQ hK
  have d00 : 0 < d0 := by rw [hd0]; norm_num
  rw [← hd0, ← hd1]
  rw [← hd0] at hc
  have hl : lifted 10.3 5.11 x = N / D := by
    unfold lifted; rw [← hD, hN, hD]; field_simp
  have hcQ : c = P / Q := by
    rw [hc, hl, hP, hQ]; field_simp
  have hW2 : W = (0.017 * (P * K * D) + 7.31 * (Q * Q * D) - 10.3 * (Q * K)) / (Q * (K * D)) := by
    have e : x + 0.017 * c + 4.4 = K / Q := by rw [hcQ, hK]; field_simp; ring
    rw [hW, e, ← hD, hcQ]; field_simp
  generalize 0.017 * (P * K * D) + 7.31 * (Q * Q * D) - 10.3 * (Q * K) = A at *
  have R0 : 0 < Q * (K * D) := by positivity
  generalize Q * (K * D) = R at *
  clear hK hc hl hP hN hD hQ hW
  refine ⟨by rw [hcQ]; positivity, ?_, ?_, ?_, ?_⟩
  · rw [hW2]; exact div_neg_of_neg_of_pos q3 R0
  · rw [hW2, lt_div_iff₀ R0]; linarith
  · have e : 1 / 15 - 1 / 10000 - 0.02 * c - d0 * W * (1 + 1.02 * c ^ 2 - 1 / 15 * c) =
        ((1 / 15 - 1 / 10000) * (Q * Q * R) - 0.02 * (P * Q * R) - d0 * (A * (Q * Q + 1.02 * (P * P) - 1 / 15 * (P * Q)))) / (Q * Q * R) := by
      rw [hcQ, hW2]; field_simp
    rw [e]; positivity
  · have e : 1 / 15 - 1 / 100 + 0.02 * c + d1 * W * (1 + 1.02 * c ^ 2 + 1 / 15 * c) =
        ((1 / 15 - 1 / 100) * (Q * Q * R) + 0.02 * (P * Q * R) + d1 * (A * (Q * Q + 1.02 * (P * P) + 1 / 15 * (P * Q)))) / (Q * Q * R) := by
      rw [hcQ, hW2]; field_simp
    rw [e]; positivity

/-! From the tangent of the difference to the difference of the cotangents -/

theorem cot_step {u w r : ℝ} (hu : 0 < sin u) (hw : 0 < cos w) (hv : 0 < sin (u + w)) :
    cos (u + w) / sin (u + w) - r = (cos u / sin u - tan w - r * (1 + cos u / sin u * tan w)) * (sin u * cos w / sin (u + w)) := by
  rw [tan_eq_sin_div_cos]
  have e : (cos u / sin u - sin w / cos w - r * (1 + cos u / sin u * (sin w / cos w))) * (sin u * cos w) = cos (u + w) - r * sin (u + w) := by
    rw [cos_add, sin_add]; field_simp
  rw [mul_div_assoc', e, sub_div]
  field_simp

theorem cot_within {u w c q : ℝ} (hu : 0 < sin u) (hw : 0 < cos w) (hv : 0 < sin (u + w)) (hc : c = cos u / sin u)
    (h1 : tan w * (1 + 1.02 * c ^ 2 - q * c) ≤ q - 0.02 * c) (h2 : -(0.02 * c) - q ≤ tan w * (1 + 1.02 * c ^ 2 + q * c)) :
    |cos (u + w) / sin (u + w) - 1.02 * c| ≤ q := by
  have p : 0 < sin u * cos w / sin (u + w) := by positivity
  have e1 := cot_step (r := 1.02 * c - q) hu hw hv
  have e2 := cot_step (r := 1.02 * c + q) hu hw hv
  rw [← hc] at e1 e2
  have f1 : 0 ≤ (c - tan w - (1.02 * c - q) * (1 + c * tan w)) * (sin u * cos w / sin (u + w)) := mul_nonneg (by nlinarith) p.le
  have f2 : 0 ≤ -(c - tan w - (1.02 * c + q) * (1 + c * tan w)) * (sin u * cos w / sin (u + w)) := mul_nonneg (by nlinarith) p.le
  rw [abs_le]; constructor <;> linarith

theorem tan_nonpos_bounds {w : ℝ} (h0 : -0.003 ≤ w) (h1 : w ≤ 0) : 1.00001 * w ≤ tan w ∧ tan w ≤ w ∧ 0 < cos w := by
  have hpi := pi_gt_three
  have hc : 0 < cos w := cos_pos_of_mem_Ioo ⟨by linarith, by linarith⟩
  refine ⟨?_, ?_, hc⟩
  · rw [tan_eq_sin_div_cos, le_div_iff₀ hc]
    have s : w ≤ sin w := by
      have := sin_le (x := -w) (by linarith)
      rw [sin_neg] at this; linarith
    have c := one_sub_sq_div_two_le_cos (x := w)
    have : w * cos w ≤ w * (1 - w ^ 2 / 2) := mul_le_mul_of_nonpos_left c h1
    nlinarith
  · have := le_tan (x := -w) (by linarith) (by linarith)
    rw [tan_neg] at this; linarith

/-- The difference of the arguments, in degrees. -/
noncomputable def argDiff (x c : ℝ) : ℝ := 0.017 * c + 7.31 / (x + 0.017 * c + 4.4) - 10.3 / (x + 5.11)

theorem argDiff_mono {x c c' : ℝ} (hx : 0 ≤ x) (h0 : -0.01 ≤ c) (h : c ≤ c') :
    argDiff x c ≤ argDiff x c' ∧ argDiff x c' - 0.017 * (c' - c) ≤ argDiff x c := by
  unfold argDiff
  have a0 : 4.3 ≤ x + 0.017 * c + 4.4 := by norm_num at *; linarith
  have b0 : 4.3 ≤ x + 0.017 * c' + 4.4 := by norm_num at *; linarith
  have e : 7.31 / (x + 0.017 * c + 4.4) - 7.31 / (x + 0.017 * c' + 4.4) =
      0.017 * (c' - c) * (7.31 / ((x + 0.017 * c + 4.4) * (x + 0.017 * c' + 4.4))) := by
    have : x + 0.017 * c + 4.4 ≠ 0 := by linarith
    have : x + 0.017 * c' + 4.4 ≠ 0 := by linarith
    field_simp; ring
  have k0 : 0 ≤ 7.31 / ((x + 0.017 * c + 4.4) * (x + 0.017 * c' + 4.4)) := by
    have : 0 < x + 0.017 * c + 4.4 := by linarith
    have : 0 < x + 0.017 * c' + 4.4 := by linarith
    positivity
  have k1 : 7.31 / ((x + 0.017 * c + 4.4) * (x + 0.017 * c' + 4.4)) ≤ 1 := by
    have : (4.3 : ℝ) * 4.3 ≤ (x + 0.017 * c + 4.4) * (x + 0.017 * c' + 4.4) := mul_le_mul a0 b0 (by norm_num) (by linarith)
    rw [div_le_one (by linarith)]; linarith
  generalize 7.31 / ((x + 0.017 * c + 4.4) * (x + 0.017 * c' + 4.4)) = k at *
  have hc : 0 ≤ 0.017 * (c' - c) := by linarith
  have m1 := mul_le_mul_of_nonneg_left k1 hc
  have m0 := mul_nonneg hc k0
  constructor <;> linarith

theorem low_core {c C y W V d t u0 : ℝ} (hd0 : 0.01745329251 ≤ d) (hd1 : d ≤ 0.01745329252) (hC : 0 < C) (hc : c ≤ C) (hy : C - y ≤ c) (y0 : 0 ≤ y)
    (c0 : 0 ≤ c) (C1 : C ≤ 100) (hu0 : 0 < u0) (hu : u0 ≤ 0.31) (yu : y ≤ 0.08 * u0 ^ 2) (Cu : C * u0 ≤ 1)
    (W0 : W < 0) (W1 : -0.1 < W) (V0 : V ≤ W) (V1 : W - 0.017 * y ≤ V) (t0 : 1.00001 * (d * V) ≤ t) (t1 : t ≤ d * V)
    (F1 : 0 < 1 / 15 - 1 / 10000 - 0.02 * C - 0.01745329251 * W * (1 + 1.02 * C ^ 2 - 1 / 15 * C))
    (F2 : 0 < 1 / 15 - 1 / 100 + 0.02 * C + 0.01745329252 * W * (1 + 1.02 * C ^ 2 + 1 / 15 * C)) :
    t * (1 + 1.02 * c ^ 2 - 1 / 15 * c) ≤ 1 / 15 - 0.02 * c ∧ -(0.02 * c) - 1 / 15 ≤ t * (1 + 1.02 * c ^ 2 + 1 / 15 * c) := by
  have Cy : C * y ≤ 0.0248 := by
    calc C * y ≤ C * (0.08 * u0 ^ 2) := mul_le_mul_of_nonneg_left yu hC.le
      _ = 0.08 * u0 * (C * u0) := by ring
      _ ≤ 0.08 * u0 * 1 := mul_le_mul_of_nonneg_left Cu (by positivity)
      _ ≤ _ := by linarith
  have u2 : u0 ^ 2 ≤ 0.31 ^ 2 := by gcongr
  have y1 : y ≤ 0.0077 := by norm_num at *; linarith
  constructor
  · have g0 : 0 ≤ 1 + 1.02 * c ^ 2 - 1 / 15 * c := by nlinarith [sq_nonneg (c - 1 / 30)]
    have tW : t ≤ 0.01745329251 * W := by nlinarith
    have g1 : 1 + 1.02 * C ^ 2 - 1 / 15 * C - 2.04 * (C * y) ≤ 1 + 1.02 * c ^ 2 - 1 / 15 * c := by nlinarith
    have m1 := mul_le_mul_of_nonneg_right tW g0
    have m2 := mul_le_mul_of_nonpos_left g1 (by linarith : 0.01745329251 * W ≤ 0)
    have m3 : 0.01745329251 * -W * (2.04 * (C * y)) ≤ 0.01745329251 * 0.1 * (2.04 * 0.0248) := by
      apply mul_le_mul
      · linarith
      · linarith
      · positivity
      · norm_num
    norm_num at *
    linarith
  · have H0 : 0 ≤ 1 + 1.02 * c ^ 2 + 1 / 15 * c := by positivity
    have H1 : 1 + 1.02 * c ^ 2 + 1 / 15 * c ≤ 1 + 1.02 * C ^ 2 + 1 / 15 * C := by nlinarith
    have H2 : 0 ≤ 1 + 1.02 * C ^ 2 + 1 / 15 * C := by positivity
    have yH : y * (1 + 1.02 * C ^ 2 + 1 / 15 * C) ≤ 0.1 := by
      have a : y * C ^ 2 ≤ 0.08 := by
        calc y * C ^ 2 ≤ 0.08 * u0 ^ 2 * C ^ 2 := mul_le_mul_of_nonneg_right yu (sq_nonneg C)
          _ = 0.08 * (C * u0) ^ 2 := by ring
          _ ≤ 0.08 * 1 ^ 2 := by gcongr
          _ = 0.08 := by norm_num
      norm_num at *
      nlinarith
    have tV : 1.00001 * (0.01745329252 * (W - 0.017 * y)) ≤ t := by
      have : 0.01745329252 * (W - 0.017 * y) ≤ d * V := by
        have h1 : d * (W - 0.017 * y) ≤ d * V := mul_le_mul_of_nonneg_left V1 (by linarith)
        have h2 : 0.01745329252 * (W - 0.017 * y) ≤ d * (W - 0.017 * y) := mul_le_mul_of_nonpos_right hd1 (by linarith)
        linarith
      linarith
    have tn : 1.00001 * (0.01745329252 * (W - 0.017 * y)) ≤ 0 := by nlinarith
    have m1 := mul_le_mul_of_nonneg_right tV H0
    have m2 := mul_le_mul_of_nonpos_left H1 tn
    have Cb : 0.02 * C ≤ 0.02 * c + 0.02 * y := by linarith
    generalize 1 + 1.02 * C ^ 2 + 1 / 15 * C = h at *
    generalize t * (1 + 1.02 * c ^ 2 + 1 / 15 * c) = r at *
    generalize 1 + 1.02 * c ^ 2 + 1 / 15 * c = k at *
    have e1 : 1.00001 * (0.01745329252 * (W - 0.017 * y)) * h = 1.00001 * (0.01745329252 * (W * h) - 0.01745329252 * 0.017 * (y * h)) := by ring
    have e2 : 0.01745329252 * W * h = 0.01745329252 * (W * h) := by ring
    rw [e1] at m2
    rw [e2] at F2
    have m12 := m2.trans m1
    generalize W * h = G at *
    generalize y * h = J at *
    clear * - m12 F2 yH y1 Cb C1
    norm_num at *
    linarith

set_option maxHeartbeats 1000000 in
/-- Low altitudes. -/
theorem low_within {x : ℝ} (h0 : 0 ≤ x) (h1 : x ≤ 16.5) :
    ∀ c : ℝ, c = cos (lifted 10.3 5.11 x * deg) / sin (lifted 10.3 5.11 x * deg) →
    -0.01 ≤ c ∧ -0.003 ≤ deg * argDiff x c ∧ deg * argDiff x c ≤ 0 ∧
    tan (deg * argDiff x c) * (1 + 1.02 * c ^ 2 - 1 / 15 * c) ≤ 1 / 15 - 0.02 * c ∧
    -(0.02 * c) - 1 / 15 ≤ tan (deg * argDiff x c) * (1 + 1.02 * c ^ 2 + 1 / 15 * c) := by
  intro c hcd
  obtain ⟨d0, d1⟩ := deg_num
  have hg0 : 2 ≤ lifted 10.3 5.11 x := by
    unfold lifted
    rw [← sub_nonneg, show x + 10.3 / (x + 5.11) - 2 = (x ^ 2 + 3.11 * x + 0.08) / (x + 5.11) by field_simp; ring]
    positivity
  have hg1 : lifted 10.3 5.11 x ≤ 17 := by
    unfold lifted
    rw [← sub_nonneg, show 17 - (x + 10.3 / (x + 5.11)) = (76.57 + 11.89 * x - x ^ 2) / (x + 5.11) by field_simp; ring]
    apply div_nonneg _ (by linarith)
    nlinarith
  have hr := fun C W => curve_rational (c := C) (W := W) h0 h1
  generalize lifted 10.3 5.11 x = g at *
  have u0 : 0 < g * deg := by nlinarith
  have uu : g * deg ≤ 0.31 := by nlinarith
  obtain ⟨b1, b2⟩ := cot_bounds u0 uu
  rw [← hcd] at b1 b2
  obtain ⟨C, hC⟩ : ∃ C : ℝ, C = 1 / (0.01745329251 * g) - 0.01745329251 * g / 3 := ⟨_, rfl⟩
  obtain ⟨C0, W0, W1, F1, F2⟩ := hr C (argDiff x C) hC rfl
  have v0 : 0.0349 ≤ 0.01745329251 * g := by linarith
  have v1 : 0.01745329251 * g ≤ 0.31 := by nlinarith
  have vu : 0.01745329251 * g ≤ g * deg := by nlinarith
  have vu' : g * deg ≤ 0.01745329251 * g + 1.7e-10 := by clear * - d1 hg1 hg0; norm_num at *; nlinarith
  generalize 0.01745329251 * g = v at *
  generalize g * deg = u at *
  have i1 : 1 / u ≤ 1 / v := one_div_le_one_div_of_le (by linarith) vu
  have i2 : 1 / v - 1 / u ≤ 1e-6 := by
    have vp : 0 < v := by linarith
    rw [show 1 / v - 1 / u = (u - v) / (v * u) by field_simp]
    rw [div_le_iff₀ (by positivity)]
    have : (0.0349 : ℝ) * 0.0349 ≤ v * u := mul_le_mul v0 (by linarith) (by norm_num) vp.le
    clear * - this vu'
    norm_num at *
    linarith
  have iv : 1 / v ≤ 29 := by
    rw [div_le_iff₀ (by linarith)]; clear * - v0; norm_num at *; linarith
  have iu : 3.2 ≤ 1 / u := by
    rw [le_div_iff₀ u0]; clear * - uu; norm_num at *; linarith
  have c1 : c ≤ C := by linarith
  have c2 : C - 0.08 * v ^ 2 ≤ c := by
    clear * - hC b1 b2 vu vu' i1 i2 v0 v1
    have : u ^ 2 ≤ v ^ 2 + 2e-10 := by norm_num at *; nlinarith
    have : v ^ 2 ≥ 0.0349 ^ 2 := by gcongr
    rw [hC]
    norm_num at *
    linarith
  have c0 : 0 ≤ c := by
    clear * - b1 uu u0 iu
    have : u ^ 2 ≤ 0.31 ^ 2 := by gcongr
    norm_num at *; linarith
  obtain ⟨V0, V1⟩ := argDiff_mono h0 (by linarith : -0.01 ≤ c) c1
  have y0 : 0 ≤ C - c := by linarith
  have y1 : C - c ≤ 0.08 := by
    clear * - c2 v0 v1
    have : v ^ 2 ≤ 0.31 ^ 2 := by
      have : 0 ≤ v := by linarith
      gcongr
    norm_num at *; linarith
  have w0 : -0.003 ≤ deg * argDiff x c := by clear * - W0 W1 V0 V1 d0 d1 y0 y1; nlinarith
  have w1 : deg * argDiff x c ≤ 0 := by clear * - W0 V0 V1 d0; nlinarith
  obtain ⟨t0, t1, -⟩ := tan_nonpos_bounds w0 w1
  refine ⟨by linarith, w0, w1, ?_⟩
  refine low_core (y := C - c) (u0 := v) d0 d1 C0 c1 (by linarith) y0 c0 (by linarith) (by linarith) v1 (by linarith) ?_ W0 W1 V0 V1 t0 t1 F1 F2
  rw [hC, sub_mul, one_div, inv_mul_cancel₀ (by linarith)]
  nlinarith

set_option maxHeartbeats 1000000 in
/-- High altitudes. -/
theorem high_within {x : ℝ} (h0 : 16.5 ≤ x) (h1 : x ≤ 90) :
    ∀ c : ℝ, c = cos (lifted 10.3 5.11 x * deg) / sin (lifted 10.3 5.11 x * deg) →
    -0.01 ≤ c ∧ -0.003 ≤ deg * argDiff x c ∧ deg * argDiff x c ≤ 0 ∧
    tan (deg * argDiff x c) * (1 + 1.02 * c ^ 2 - 1 / 15 * c) ≤ 1 / 15 - 0.02 * c ∧
    -(0.02 * c) - 1 / 15 ≤ tan (deg * argDiff x c) * (1 + 1.02 * c ^ 2 + 1 / 15 * c) := by
  intro c hcd
  obtain ⟨d0, d1⟩ := deg_num
  have hpi : deg * 90 = π / 2 := by unfold deg; ring
  have hg0 : 16.97 ≤ lifted 10.3 5.11 x := by
    unfold lifted
    rw [← sub_nonneg, show x + 10.3 / (x + 5.11) - 16.97 = (x ^ 2 - 11.86 * x - 76.4167) / (x + 5.11) by field_simp; ring]
    apply div_nonneg _ (by linarith)
    nlinarith
  have hgx : x ≤ lifted 10.3 5.11 x := by
    unfold lifted
    have : 0 < 10.3 / (x + 5.11) := by positivity
    linarith
  have hg1 : lifted 10.3 5.11 x ≤ 90.11 := by
    unfold lifted
    rw [← sub_nonneg, show 90.11 - (x + 10.3 / (x + 5.11)) = (450.1621 + 85 * x - x ^ 2) / (x + 5.11) by field_simp; ring]
    apply div_nonneg _ (by linarith)
    nlinarith
  generalize lifted 10.3 5.11 x = g at *
  have p3 := pi_gt_three
  have p4 := pi_lt_d2
  have u1 : g * deg ≤ π / 2 + 0.002 := by
    rw [← hpi]; nlinarith
  have u0 : 0.296 ≤ g * deg := by norm_num at *; nlinarith
  have s0 : 0 < sin (g * deg) := sin_pos_of_pos_of_lt_pi (by linarith) (by linarith)
  -- the cotangent
  have ca : c ≤ 3.29 := by
    have b := (cot_bounds (u := 0.296) (by norm_num) (by norm_num)).2
    rcases eq_or_lt_of_le u0 with h | h
    · rw [hcd, ← h]; refine b.trans (by norm_num)
    · have := cot_anti (by norm_num) h (by linarith)
      rw [hcd]; refine (this.le.trans b).trans (by norm_num)
  have cb : -0.0021 ≤ c := by
    rw [hcd, le_div_iff₀ s0]
    have k : -(g * deg - π / 2) ≤ cos (g * deg) ∨ 0 ≤ cos (g * deg) := by
      rcases le_total (g * deg) (π / 2) with h | h
      · right; exact cos_nonneg_of_mem_Icc ⟨by linarith, h⟩
      · left
        have := sin_le (x := g * deg - π / 2) (by linarith)
        rw [sin_sub_pi_div_two] at this; linarith
    have s9 : 0.99 ≤ sin (g * deg) ∨ 0 ≤ cos (g * deg) := by
      rcases le_total (g * deg) (π / 2) with h | h
      · right; exact cos_nonneg_of_mem_Icc ⟨by linarith, h⟩
      · left
        have := one_sub_sq_div_two_le_cos (x := g * deg - π / 2)
        rw [cos_sub_pi_div_two] at this
        nlinarith
    rcases k with k | k <;> rcases s9 with s | s <;> nlinarith
  have cx : 0.017 * c ≤ 0.97404 / x := by
    have hx : 0 < x := by linarith
    rw [le_div_iff₀ hx]
    rcases le_total c 0 with h | h
    · nlinarith
    · have cu : c * (g * deg) ≤ 1 := by
        rw [hcd, div_mul_eq_mul_div, div_le_one s0]
        have hu2 : g * deg ≤ π / 2 := by
          by_contra hh
          push Not at hh
          have : cos (g * deg) < 0 := cos_neg_of_pi_div_two_lt_of_lt hh (by linarith)
          have : c < 0 := by rw [hcd]; exact div_neg_of_neg_of_pos this s0
          linarith
        rcases eq_or_lt_of_le hu2 with e | e
        · rw [e, cos_pi_div_two, zero_mul, sin_pi_div_two]; norm_num
        · have cp : 0 < cos (g * deg) := cos_pos_of_mem_Ioo ⟨by linarith, e⟩
          have := le_tan (by linarith) e
          rw [tan_eq_sin_div_cos, le_div_iff₀ cp] at this
          linarith
      have : c * (x * 0.01745329251) ≤ c * (g * deg) := by
        apply mul_le_mul_of_nonneg_left _ h
        apply mul_le_mul hgx d0 (by norm_num) (by linarith)
      norm_num at *
      linarith
  -- the difference of the arguments
  have W0 : argDiff x c ≤ 0 := by
    have a : 7.31 / (x + 0.017 * c + 4.4) ≤ 7.31 / (x + 4.3999) := by
      apply div_le_div_of_nonneg_left (by norm_num) (by linarith)
      norm_num at *; linarith
    have b : 0.97404 / x + 7.31 / (x + 4.3999) - 10.3 / (x + 5.11) ≤ 0 := by
      have hx : 0 < x := by linarith
      rw [show 0.97404 / x + 7.31 / (x + 4.3999) - 10.3 / (x + 5.11) =
        (0.97404 * ((x + 4.3999) * (x + 5.11)) + 7.31 * (x * (x + 5.11)) - 10.3 * (x * (x + 4.3999))) / (x * (x + 4.3999) * (x + 5.11)) by field_simp]
      apply div_nonpos_of_nonpos_of_nonneg _ (by positivity)
      nlinarith
    unfold argDiff
    linarith
  have W1 : -0.131 ≤ argDiff x c := by
    have a : 7.31 / (x + 4.456) ≤ 7.31 / (x + 0.017 * c + 4.4) := by
      apply div_le_div_of_nonneg_left (by norm_num) (by norm_num at *; linarith)
      norm_num at *; linarith
    have b : 0 ≤ 7.31 / (x + 4.456) - 10.3 / (x + 5.11) + 0.1305 := by
      rw [show 7.31 / (x + 4.456) - 10.3 / (x + 5.11) + 0.1305 =
        (7.31 * (x + 5.11) - 10.3 * (x + 4.456) + 0.1305 * ((x + 4.456) * (x + 5.11))) / ((x + 4.456) * (x + 5.11)) by field_simp]
      apply div_nonneg _ (by positivity)
      nlinarith
    unfold argDiff
    norm_num at *
    linarith
  have w0 : -0.0024 ≤ deg * argDiff x c := by norm_num at *; nlinarith
  have w1 : deg * argDiff x c ≤ 0 := by nlinarith
  have w0' : -0.003 ≤ deg * argDiff x c := by linarith
  obtain ⟨t0, t1, -⟩ := tan_nonpos_bounds w0' w1
  refine ⟨by linarith, w0', w1, ?_, ?_⟩
  · have G : 0 ≤ 1 + 1.02 * c ^ 2 - 1 / 15 * c := by nlinarith [sq_nonneg (c - 1 / 30)]
    have : tan (deg * argDiff x c) * (1 + 1.02 * c ^ 2 - 1 / 15 * c) ≤ 0 := mul_nonpos_of_nonpos_of_nonneg (by linarith) G
    norm_num at *; linarith
  · clear * - ca cb t0 w0
    have c2 : c ^ 2 ≤ 11 := by nlinarith
    have H0 : 0 ≤ 1 + 1.02 * c ^ 2 + 1 / 15 * c := by nlinarith
    have H1 : 1 + 1.02 * c ^ 2 + 1 / 15 * c ≤ 13 := by nlinarith
    have T : -0.0025 ≤ tan (deg * argDiff x c) := by norm_num at *; linarith
    have := mul_le_mul_of_nonneg_right T H0
    norm_num at *; linarith

/-- **C176.**  Saemundsson's formula, from the true altitude, is consistent with Bennett's, from the apparent altitude, within 4 arc seconds from the
horizon to the zenith, as documented: at the apparent altitude that the first gives, the second gives the same refraction. -/
theorem C176_consistent (h : ℝ) (h0 : 0 ≤ h) (h1 : h ≤ π / 2) : |Bennett (h + Saemundsson h) - Saemundsson h| ≤ fromSec 4 := by
  have hd := deg_pos
  obtain ⟨d0, d1⟩ := deg_num
  obtain ⟨x0, x1⟩ := div_deg_mem h0 h1
  have key : ∀ c : ℝ, c = cos (lifted 10.3 5.11 (h / deg) * deg) / sin (lifted 10.3 5.11 (h / deg) * deg) →
    -0.01 ≤ c ∧ -0.003 ≤ deg * argDiff (h / deg) c ∧ deg * argDiff (h / deg) c ≤ 0 ∧
    tan (deg * argDiff (h / deg) c) * (1 + 1.02 * c ^ 2 - 1 / 15 * c) ≤ 1 / 15 - 0.02 * c ∧
    -(0.02 * c) - 1 / 15 ≤ tan (deg * argDiff (h / deg) c) * (1 + 1.02 * c ^ 2 + 1 / 15 * c) := by
    rcases le_total (h / deg) 16.5 with hx | hx
    · exact low_within x0 hx
    · exact high_within hx x1
  obtain ⟨c0, w0, w1, k1, k2⟩ := key _ rfl
  have hS := Saemundsson_eq h
  have hB := Bennett_eq (h + Saemundsson h)
  obtain ⟨u0, u1⟩ := lifted_range (c := 10.3) (k := 5.11) (by norm_num) (by norm_num) x1 x0 (by norm_num)
  have hu2 : 2 ≤ lifted 10.3 5.11 (h / deg) := by
    unfold lifted
    rw [← sub_nonneg, show h / deg + 10.3 / (h / deg + 5.11) - 2 = ((h / deg) ^ 2 + 3.11 * (h / deg) + 0.08) / (h / deg + 5.11) by field_simp; ring]
    positivity
  have hv : lifted 7.31 4.4 ((h + Saemundsson h) / deg) * deg = lifted 10.3 5.11 (h / deg) * deg +
      deg * argDiff (h / deg) (cos (lifted 10.3 5.11 (h / deg) * deg) / sin (lifted 10.3 5.11 (h / deg) * deg)) := by
    have e : (h + Saemundsson h) / deg = h / deg + 0.017 * (cos (lifted 10.3 5.11 (h / deg) * deg) / sin (lifted 10.3 5.11 (h / deg) * deg)) := by
      rw [hS]; unfold fromMin; field_simp; ring
    rw [e]
    generalize cos (lifted 10.3 5.11 (h / deg) * deg) / sin (lifted 10.3 5.11 (h / deg) * deg) = c
    unfold argDiff lifted
    ring
  rw [hB, hS]
  rw [hS] at hv
  rw [hv]
  generalize hc : cos (lifted 10.3 5.11 (h / deg) * deg) / sin (lifted 10.3 5.11 (h / deg) * deg) = c at *
  have su : 0 < sin (lifted 10.3 5.11 (h / deg) * deg) := sin_pos_of_pos_of_lt_pi u0 u1
  have sv : 0 < sin (lifted 10.3 5.11 (h / deg) * deg + deg * argDiff (h / deg) c) := by
    apply sin_pos_of_pos_of_lt_pi
    · have : 2 * 0.01745329251 ≤ lifted 10.3 5.11 (h / deg) * deg := mul_le_mul hu2 d0 (by norm_num) (by linarith)
      norm_num at *; linarith
    · linarith
  have := cot_within su (tan_nonpos_bounds w0 w1).2.2 sv hc.symm k1 k2
  unfold fromMin fromSec
  rw [show ∀ a b : ℝ, a / 60 * deg - b / 60 * deg = (a - b) * (deg / 60) by intros; ring, abs_mul, abs_of_pos (by positivity : 0 < deg / 60)]
  have := mul_le_mul_of_nonneg_right this (by positivity : 0 ≤ deg / 60)
  linarith

/-! The formulas for altitudes above 15° -/

def gS : ℚ := 0.01745329251 / 3600
def gA : List ℚ := [0, 58.276, 0, -0.0824]
def gn : List ℚ := padd [0, 1] (psc (-gS) gA)
def gm : List ℚ := padd [1] (psc gS (pmul [0, 1] gA))
def gD : List ℚ := padd (psc 58.294 (pmul gn (pmul gm gm))) (padd (psc (-0.0668) (pmul gn (pmul gn gn))) (psc (-1) (pmul gA (pmul gm (pmul gm gm)))))
def gP (s : ℚ) : List ℚ := padd (psc 0.0299 (pmul gm (pmul gm gm))) (psc s gD)

theorem gP_cells : ∀ s ∈ [(1 : ℚ), -1], ∀ i < 30, polyCellOK (gP s) ((2 * (i : ℕ) + 1) * (1 / 16)) (1 / 16) = true := by decide +kernel

theorem gt15_rational {t F a T : ℝ} (h0 : 0 ≤ t) (h1 : t ≤ 3.75) (hF : F = 58.276 * t - 0.0824 * t ^ 3) (ha : a = 0.01745329251 / 3600 * F)
    (hT : T = (t - a) / (1 + t * a)) (hm : 0 < 1 + t * a) : |58.294 * T - 0.0668 * T ^ 3 - F| ≤ 0.0299 := by
  have eA : ev gA t = F := by simp only [gA, ev, hF]; push_cast; ring
  have en : ev gn t = t - a := by
    simp only [gn, ev_padd, ev_psc, eA, gS, ha]; simp only [ev]; push_cast; ring
  have em : ev gm t = 1 + t * a := by
    simp only [gm, ev_padd, ev_psc, ev_pmul, eA, gS, ha]; simp only [ev]; push_cast; ring
  have eD : ev gD t = 58.294 * ((t - a) * ((1 + t * a) * (1 + t * a))) - 0.0668 * ((t - a) * ((t - a) * (t - a))) - F * ((1 + t * a) * ((1 + t * a) * (1 + t * a))) := by
    simp only [gD, ev_padd, ev_psc, ev_pmul, en, em, eA]; push_cast; ring
  have k : ∀ s : ℚ, s ∈ [(1 : ℚ), -1] → 0 < ev (gP s) t := fun s hs =>
    cells_pos (by norm_num) (gP_cells s hs) h0 (by push_cast; norm_num at *; linarith) (by norm_num)
  have k1 := k 1 (by simp)
  have k2 := k (-1) (by simp)
  simp only [gP, ev_padd, ev_psc, ev_pmul, em, eD] at k1 k2
  push_cast at k1 k2
  generalize 1 + t * a = m at *
  generalize t - a = n at *
  have e : 58.294 * T - 0.0668 * T ^ 3 - F = (58.294 * (n * (m * m)) - 0.0668 * (n * (n * n)) - F * (m * (m * m))) / (m * (m * m)) := by
    rw [hT]; field_simp
  rw [e, abs_div, abs_of_pos (by positivity : 0 < m * (m * m)), div_le_iff₀ (by positivity), abs_le]
  constructor <;> linarith

set_option maxHeartbeats 1000000 in
/-- **C176.**  The formula from the true altitude gives the refraction that the formula from the apparent altitude gives, within 0.03 arc second from
15° to the zenith. -/
theorem C176_gt15 (h : ℝ) (h0 : π / 12 ≤ h) (h1 : h ≤ π / 2) : |Gt15True (h + Gt15Apparent h) - Gt15Apparent h| ≤ fromSec 0.03 := by
  have hd := deg_pos
  obtain ⟨d0, d1⟩ := deg_num
  have p3 := pi_gt_d4
  have p4 := pi_lt_d4
  have t0 : 0 ≤ tan (π / 2 - h) := tan_nonneg_of_nonneg_of_le_pi_div_two (by linarith) (by linarith)
  have t1 : tan (π / 2 - h) ≤ 3.75 := by
    rw [tan_pi_div_two_sub, tan_eq_sin_div_cos, inv_div]
    have b := (cot_bounds (u := π / 12) (by linarith) (by linarith)).2
    have q : 1 / (π / 12) ≤ 3.82 := by rw [div_le_iff₀ (by linarith)]; linarith
    rcases eq_or_lt_of_le h0 with e | e
    · rw [← e]; linarith
    · have := cot_anti (by linarith) e (by linarith)
      linarith
  have hz : cos (π / 2 - h) ≠ 0 := (cos_pos_of_mem_Ioo ⟨by linarith, by linarith⟩).ne'
  obtain ⟨F, hF⟩ : ∃ F, F = 58.276 * tan (π / 2 - h) - 0.0824 * tan (π / 2 - h) ^ 3 := ⟨_, rfl⟩
  have hA : Gt15Apparent h = deg / 3600 * F := by
    rw [hF]; unfold Gt15Apparent fromSec; ring
  have hG : Gt15True (h + Gt15Apparent h) = deg / 3600 * (58.294 * tan (π / 2 - h - deg / 3600 * F) - 0.0668 * tan (π / 2 - h - deg / 3600 * F) ^ 3) := by
    unfold Gt15True fromSec
    rw [hA, show π / 2 - (h + deg / 3600 * F) = π / 2 - h - deg / 3600 * F by ring]
    ring
  rw [hG, hA]
  generalize hzz : π / 2 - h = z at *
  have F0 : 0 ≤ F := by
    rw [hF, show 58.276 * tan z - 0.0824 * tan z ^ 3 = tan z * (58.276 - 0.0824 * tan z ^ 2) by ring]
    apply mul_nonneg t0
    nlinarith
  have F1 : F ≤ 220 := by
    have : 0 ≤ tan z ^ 3 := by positivity
    rw [hF]; linarith
  have w0 : -0.003 ≤ -(deg / 3600 * F) := by
    have : deg / 3600 * F ≤ 0.0175 / 3600 * 220 := by gcongr; linarith
    norm_num at *; linarith
  obtain ⟨b1, b2, b3⟩ := tan_nonpos_bounds w0 (by linarith [show 0 ≤ deg / 3600 * F by positivity])
  rw [tan_neg] at b1 b2
  rw [cos_neg] at b3
  have hsub : tan (z - deg / 3600 * F) = (tan z - tan (deg / 3600 * F)) / (1 + tan z * tan (deg / 3600 * F)) := by
    have cz := hz
    have cA := b3.ne'
    rw [tan_eq_sin_div_cos, sin_sub, cos_sub, tan_eq_sin_div_cos, tan_eq_sin_div_cos]
    generalize cos z = c1 at *; generalize sin z = s1; generalize cos (deg / 3600 * F) = c2 at *; generalize sin (deg / 3600 * F) = s2
    rw [show s1 / c1 - s2 / c2 = (s1 * c2 - c1 * s2) / (c1 * c2) by field_simp, show 1 + s1 / c1 * (s2 / c2) = (c1 * c2 + s1 * s2) / (c1 * c2) by field_simp,
      div_div_div_cancel_right₀ (mul_ne_zero cz cA)]
  rw [hsub]
  generalize tan z = t at *
  obtain ⟨a, ha⟩ : ∃ a, a = 0.01745329251 / 3600 * F := ⟨_, rfl⟩
  have aA : a ≤ deg / 3600 * F := by rw [ha]; gcongr
  have Aa : deg / 3600 * F ≤ 1.00001 * a := by
    rw [ha]
    have : deg ≤ 1.00001 * 0.01745329251 := by norm_num at *; linarith
    calc deg / 3600 * F ≤ 1.00001 * 0.01745329251 / 3600 * F := by gcongr
      _ = _ := by ring
  have a0 : 0 ≤ a := by rw [ha]; positivity
  have a1 : a ≤ 0.00107 := by
    rw [ha]
    calc (0.01745329251 : ℝ) / 3600 * F ≤ 0.01745329251 / 3600 * 220 := by gcongr
      _ ≤ _ := by norm_num
  generalize tan (deg / 3600 * F) = τ at *
  have τ0 : a ≤ τ := by linarith
  have τ1 : τ ≤ a + 3e-8 := by norm_num at *; linarith
  have key := gt15_rational t0 t1 hF ha rfl (by positivity)
  have m1 : 0 < 1 + t * a := by positivity
  have m2 : 0 < 1 + t * τ := by have : 0 ≤ τ := by linarith
                                positivity
  have dd : (t - a) / (1 + t * a) - (t - τ) / (1 + t * τ) = (τ - a) * (1 + t ^ 2) / ((1 + t * a) * (1 + t * τ)) := by
    field_simp; ring
  have dd0 : 0 ≤ (t - a) / (1 + t * a) - (t - τ) / (1 + t * τ) := by
    rw [dd]; have : 0 ≤ τ - a := by linarith
    positivity
  have dd1 : (t - a) / (1 + t * a) - (t - τ) / (1 + t * τ) ≤ 5e-7 := by
    rw [dd]
    have n0 : 0 ≤ τ - a := by linarith
    have n1 : (τ - a) * (1 + t ^ 2) ≤ 3e-8 * 16 := by
      apply mul_le_mul (by linarith) (by nlinarith) (by positivity) (by norm_num)
    have q : 1 ≤ (1 + t * a) * (1 + t * τ) := by
      have : 0 ≤ t * a := by positivity
      have : 0 ≤ t * τ := mul_nonneg t0 (by linarith)
      clear * - this m1 m2 a0 t0
      have : 0 ≤ t * a := by positivity
      nlinarith
    refine (div_le_self (by positivity) q).trans (n1.trans (by norm_num))
  have T1 : |(t - a) / (1 + t * a)| ≤ 4 := by
    rw [abs_div, abs_of_pos m1, div_le_iff₀ m1, abs_le]
    have : 0 ≤ t * a := by positivity
    constructor <;> linarith
  rw [← mul_sub, abs_mul, abs_of_pos (by positivity : 0 < deg / 3600)]
  unfold fromSec
  rw [show 0.03 / 3600 * deg = deg / 3600 * 0.03 by ring]
  apply mul_le_mul_of_nonneg_left _ (by positivity)
  clear * - key dd0 dd1 T1
  generalize (t - a) / (1 + t * a) = T at *
  generalize (t - τ) / (1 + t * τ) = Y at *
  obtain ⟨q1, q2⟩ := abs_le.1 key
  obtain ⟨r1, r2⟩ := abs_le.1 T1
  have e : 58.294 * Y - 0.0668 * Y ^ 3 = 58.294 * T - 0.0668 * T ^ 3 - (T - Y) * (58.294 - 0.0668 * (T ^ 2 + T * Y + Y ^ 2)) := by ring
  have s : T ^ 2 + T * Y + Y ^ 2 ≤ 51 := by norm_num at *; nlinarith
  have s0 : 0 ≤ T ^ 2 + T * Y + Y ^ 2 := by nlinarith [sq_nonneg (T + Y), sq_nonneg T, sq_nonneg Y]
  have g0 : 0 ≤ (T - Y) * (58.294 - 0.0668 * (T ^ 2 + T * Y + Y ^ 2)) := mul_nonneg dd0 (by linarith)
  have g1 : (T - Y) * (58.294 - 0.0668 * (T ^ 2 + T * Y + Y ^ 2)) ≤ 5e-7 * 58.294 := mul_le_mul dd1 (by linarith) (by linarith) (by norm_num)
  rw [e, abs_le]
  norm_num at *
  constructor <;> linarith

/-- C176: altitudes 15° and 45° meet the hypotheses, and the refraction there is not zero. -/
example : (0 : ℝ) ≤ π / 12 ∧ π / 12 ≤ π / 4 ∧ π / 4 ≤ π / 2 ∧ 0 < Gt15Apparent (π / 4) := by
  refine ⟨?_, ?_, ?_, (C108_gt15 (π / 4) (π / 2) ?_ ?_ le_rfl).2.2.2.2.2⟩ <;> linarith [pi_pos]

end Verif.Props
