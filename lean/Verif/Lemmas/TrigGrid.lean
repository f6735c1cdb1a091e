import Mathlib.Analysis.SpecialFunctions.Trigonometric.Arctan
import Mathlib.Analysis.SpecialFunctions.Trigonometric.Bounds
import Mathlib.Analysis.SpecialFunctions.Trigonometric.ArctanDeriv
import Mathlib.Analysis.Calculus.MeanValue
import Mathlib.Tactic
/-
Bounds of trigonometric polynomials with rational coefficients from their values at rational points of the circle.
-/
namespace Verif.Lemmas

open Real

/-- Σ aₖ sin kP + bₖ cos kP, k from j on. -/
noncomputable def trig (j : ℕ) : List (ℚ × ℚ) → ℝ → ℝ
  | [], _ => 0
  | c :: l, P => (c.1 * sin (j * P) + c.2 * cos (j * P)) + trig (j + 1) l P

/-- The imaginary part of the same sum. -/
noncomputable def trigI (j : ℕ) : List (ℚ × ℚ) → ℝ → ℝ
  | [], _ => 0
  | c :: l, P => (c.2 * sin (j * P) - c.1 * cos (j * P)) + trigI (j + 1) l P

/-- Both, times the last component, at the point (w.1/d, w.2/d) of the circle, by Horner's scheme. -/
def hz (w : ℤ × ℤ) (d : ℤ) : List (ℤ × ℤ) → ℤ × ℤ × ℤ
  | [] => (0, 0, 1)
  | c :: l =>
    let h := hz w d l
    let D := d * h.2.2
    (c.2 * D + (w.1 * h.1 - w.2 * h.2.1), -c.1 * D + (w.1 * h.2.1 + w.2 * h.1), D)

/-- Coefficients given in units of 1/K. -/
def unitsOf (K : ℤ) (l : List (ℤ × ℤ)) : List (ℚ × ℚ) := l.map fun c => ((c.1 : ℚ) / K, (c.2 : ℚ) / K)

theorem trig_shift (l : List (ℚ × ℚ)) (j : ℕ) (P : ℝ) :
    trig (j + 1) l P = cos P * trig j l P - sin P * trigI j l P ∧ trigI (j + 1) l P = cos P * trigI j l P + sin P * trig j l P := by
  induction l generalizing j with
  | nil => simp [trig, trigI]
  | cons c l ih =>
    obtain ⟨h1, h2⟩ := ih (j + 1)
    have e : ((j + 1 : ℕ) : ℝ) * P = j * P + P := by push_cast; ring
    simp only [trig, trigI]
    rw [h1, h2, e, sin_add, cos_add]
    constructor <;> ring

theorem trig_hz (l : List (ℤ × ℤ)) {P : ℝ} {w : ℤ × ℤ} {d K : ℤ} (hd : 0 < d) (hK : 0 < K) (hc : cos P * d = w.1) (hs : sin P * d = w.2) :
    0 < (hz w d l).2.2 ∧ ((hz w d l).1 : ℝ) = (hz w d l).2.2 * (K * trig 0 (unitsOf K l) P) ∧
    ((hz w d l).2.1 : ℝ) = (hz w d l).2.2 * (K * trigI 0 (unitsOf K l) P) := by
  have hK' : (K : ℝ) ≠ 0 := by exact_mod_cast hK.ne'
  induction l with
  | nil => simp [hz, trig, trigI, unitsOf]
  | cons c l ih =>
    obtain ⟨h0, h1, h2⟩ := ih
    obtain ⟨s1, s2⟩ := trig_shift (unitsOf K l) 0 P
    have e : unitsOf K (c :: l) = ((c.1 : ℚ) / K, (c.2 : ℚ) / K) :: unitsOf K l := rfl
    simp only [hz, e, trig, trigI]
    refine ⟨mul_pos hd h0, ?_, ?_⟩
    · rw [s1]
      push_cast
      rw [h1, h2, ← hc, ← hs]
      simp only [zero_mul, sin_zero, cos_zero]
      field_simp
      ring
    · rw [s2]
      push_cast
      rw [h1, h2, ← hc, ← hs]
      simp only [zero_mul, sin_zero, cos_zero]
      field_simp
      ring

theorem sin_lip (x y : ℝ) : |sin x - sin y| ≤ |x - y| := by
  rw [sin_sub_sin, abs_mul, abs_mul]
  have h1 := abs_cos_le_one ((x + y) / 2)
  have h2 : |sin ((x - y) / 2)| ≤ |(x - y) / 2| := abs_sin_le_abs
  rw [abs_div, abs_of_pos (by norm_num : (0 : ℝ) < 2)] at h2
  rw [abs_of_pos (by norm_num : (0 : ℝ) < 2)]
  nlinarith [abs_nonneg (sin ((x - y) / 2))]

theorem cos_lip (x y : ℝ) : |cos x - cos y| ≤ |x - y| := by
  rw [← sin_pi_div_two_sub, ← sin_pi_div_two_sub]
  refine (sin_lip _ _).trans ?_
  rw [show π / 2 - x - (π / 2 - y) = -(x - y) by ring, abs_neg]

/-- A Lipschitz constant. -/
def tlip (j : ℕ) : List (ℚ × ℚ) → ℚ
  | [] => 0
  | c :: l => j * (|c.1| + |c.2|) + tlip (j + 1) l

theorem trig_lip (l : List (ℚ × ℚ)) (j : ℕ) (P Q : ℝ) : |trig j l P - trig j l Q| ≤ tlip j l * |P - Q| := by
  induction l generalizing j with
  | nil => simp [trig, tlip]
  | cons c l ih =>
    simp only [trig, tlip]
    have h := ih (j + 1)
    have hs : |sin (j * P) - sin (j * Q)| ≤ j * |P - Q| := by
      have h1 := sin_lip (j * P) (j * Q)
      rwa [← mul_sub, abs_mul, Nat.abs_cast] at h1
    have hc : |cos (j * P) - cos (j * Q)| ≤ j * |P - Q| := by
      have h1 := cos_lip (j * P) (j * Q)
      rwa [← mul_sub, abs_mul, Nat.abs_cast] at h1
    have e : c.1 * sin (j * P) + c.2 * cos (j * P) + trig (j + 1) l P - (c.1 * sin (j * Q) + c.2 * cos (j * Q) + trig (j + 1) l Q) =
        (c.1 * (sin (j * P) - sin (j * Q)) + c.2 * (cos (j * P) - cos (j * Q))) + (trig (j + 1) l P - trig (j + 1) l Q) := by ring
    rw [e]
    push_cast
    have k1 : |(c.1 : ℝ) * (sin (j * P) - sin (j * Q))| ≤ |(c.1 : ℝ)| * (j * |P - Q|) := by
      rw [abs_mul]; exact mul_le_mul_of_nonneg_left hs (abs_nonneg _)
    have k2 : |(c.2 : ℝ) * (cos (j * P) - cos (j * Q))| ≤ |(c.2 : ℝ)| * (j * |P - Q|) := by
      rw [abs_mul]; exact mul_le_mul_of_nonneg_left hc (abs_nonneg _)
    refine (abs_add_le _ _).trans ((add_le_add ((abs_add_le _ _).trans (add_le_add k1 k2)) h).trans (le_of_eq ?_))
    ring

theorem trig_periodic (l : List (ℚ × ℚ)) (j : ℕ) (P : ℝ) (m : ℤ) : trig j l (P + m * (2 * π)) = trig j l P := by
  induction l generalizing j with
  | nil => rfl
  | cons c l ih =>
    simp only [trig]
    have e : (j : ℝ) * (P + m * (2 * π)) = j * P + ((j * m : ℤ) : ℝ) * (2 * π) := by push_cast; ring
    rw [ih, e, sin_add_int_mul_two_pi, cos_add_int_mul_two_pi]

/-- A rational point of the circle: σ times the point of parameter j/N − 1; the common denominator. -/
def wpt (N : ℕ) (σ : ℤ) (j : ℕ) : ℤ × ℤ := (σ * ((N : ℤ) * N - ((j : ℤ) - N) * ((j : ℤ) - N)), σ * (2 * ((j : ℤ) - N) * N))
def dpt (N : ℕ) (j : ℕ) : ℤ := (N : ℤ) * N + ((j : ℤ) - N) * ((j : ℤ) - N)

theorem two_arctan (t : ℝ) : cos (2 * arctan t) = (1 - t ^ 2) / (1 + t ^ 2) ∧ sin (2 * arctan t) = 2 * t / (1 + t ^ 2) := by
  have h : (0 : ℝ) < 1 + t ^ 2 := by positivity
  have hq : sqrt (1 + t ^ 2) ^ 2 = 1 + t ^ 2 := sq_sqrt h.le
  have hq0 : sqrt (1 + t ^ 2) ≠ 0 := (sqrt_pos.2 h).ne'
  rw [cos_two_mul, sin_two_mul, cos_arctan, sin_arctan]
  constructor
  · rw [div_pow, hq]; field_simp; ring
  · rw [show 2 * (t / sqrt (1 + t ^ 2)) * (1 / sqrt (1 + t ^ 2)) = 2 * t / sqrt (1 + t ^ 2) ^ 2 by field_simp, hq]

theorem arctan_lip (x y : ℝ) : |arctan x - arctan y| ≤ |x - y| := by
  have := Convex.norm_image_sub_le_of_norm_hasDerivWithin_le (f := arctan) (f' := fun x => 1 / (1 + x ^ 2)) (s := Set.univ) (C := 1) (x := y) (y := x)
    (fun z _ => (hasDerivAt_arctan z).hasDerivWithinAt) (fun z _ => by
      rw [norm_eq_abs, abs_of_pos (by positivity), div_le_one (by positivity)]; nlinarith [sq_nonneg z]) convex_univ trivial trivial
  simpa [norm_eq_abs] using this

theorem quarter {P : ℝ} (h1 : -(π / 2) ≤ P) (h2 : P ≤ π / 2) {N : ℕ} (hN : 0 < N) :
    ∃ j ≤ 2 * N, ∃ Q, cos Q * dpt N j = (wpt N 1 j).1 ∧ sin Q * dpt N j = (wpt N 1 j).2 ∧ |P - Q| ≤ 1 / N := by
  have hπ := pi_pos
  obtain ⟨t, ht⟩ : ∃ t, t = tan (P / 2) := ⟨_, rfl⟩
  have hP : P = 2 * arctan t := by rw [ht, arctan_tan (by linarith) (by linarith)]; ring
  have t1 : t ≤ 1 := by
    rw [ht, ← tan_pi_div_four]
    exact strictMonoOn_tan.monotoneOn ⟨by linarith, by linarith⟩ ⟨by linarith, by linarith⟩ (by linarith)
  have t2 : -1 ≤ t := by
    rw [ht, ← tan_pi_div_four, ← tan_neg]
    exact strictMonoOn_tan.monotoneOn ⟨by linarith, by linarith⟩ ⟨by linarith, by linarith⟩ (by linarith)
  have hN' : (0 : ℝ) < N := by exact_mod_cast hN
  obtain ⟨r, hr⟩ : ∃ r, r = round ((t + 1) * N) := ⟨_, rfl⟩
  have hrd := abs_sub_round ((t + 1) * N)
  rw [← hr] at hrd
  have r0 : 0 ≤ r := by
    rw [hr, round_eq]
    apply Int.floor_nonneg.2
    have : 0 ≤ (t + 1) * N := mul_nonneg (by linarith) hN'.le
    linarith
  have r1 : r ≤ 2 * N := by
    have h3 : (t + 1) * N ≤ 2 * N := mul_le_mul_of_nonneg_right (by linarith) hN'.le
    have h4 : (r : ℝ) < (2 * N : ℤ) + 1 := by
      push_cast
      linarith [(abs_le.1 hrd).1]
    have : r < (2 * N : ℤ) + 1 := by exact_mod_cast h4
    omega
  obtain ⟨j, rfl⟩ := Int.eq_ofNat_of_zero_le r0
  refine ⟨j, by omega, 2 * arctan ((j : ℝ) / N - 1), ?_, ?_, ?_⟩
  · have hp : (N : ℝ) ^ 2 + ((j : ℝ) - N) ^ 2 ≠ 0 := by positivity
    rw [(two_arctan _).1, show (j : ℝ) / N - 1 = ((j : ℝ) - N) / N by field_simp]
    unfold wpt dpt; push_cast; field_simp; try ring
  · have hp : (N : ℝ) ^ 2 + ((j : ℝ) - N) ^ 2 ≠ 0 := by positivity
    rw [(two_arctan _).2, show (j : ℝ) / N - 1 = ((j : ℝ) - N) / N by field_simp]
    unfold wpt dpt; push_cast; field_simp; try ring
  · rw [hP, ← mul_sub, abs_mul, abs_two]
    have h5 := arctan_lip t ((j : ℝ) / N - 1)
    have h6 : |t - ((j : ℝ) / N - 1)| ≤ 1 / 2 / N := by
      have e : t - ((j : ℝ) / N - 1) = ((t + 1) * N - j) / N := by field_simp; ring
      rw [e, abs_div, abs_of_pos hN']
      exact div_le_div_of_nonneg_right (by exact_mod_cast hrd) hN'.le
    calc 2 * |arctan t - arctan ((j : ℝ) / N - 1)| ≤ 2 * (1 / 2 / N) := by linarith
      _ = 1 / N := by ring

/-- Every angle is, up to full turns, within 1/N of one of the points. -/
theorem grid_cover (P : ℝ) {N : ℕ} (hN : 0 < N) :
    ∃ σ ∈ [(1 : ℤ), -1], ∃ j ∈ List.range (2 * N + 1), ∃ Q, cos Q * dpt N j = (wpt N σ j).1 ∧ sin Q * dpt N j = (wpt N σ j).2 ∧ ∃ m : ℤ, |P + m * (2 * π) - Q| ≤ 1 / N := by
  have hπ := pi_pos
  obtain ⟨m, hm, -⟩ := existsUnique_add_zsmul_mem_Ico (show 0 < 2 * π by positivity) P (-(π / 2))
  simp only [zsmul_eq_mul] at hm
  obtain ⟨h1, h2⟩ := hm
  obtain ⟨R, hR⟩ : ∃ R, R = P + m * (2 * π) := ⟨_, rfl⟩
  rw [← hR] at h1 h2
  rcases le_total R (π / 2) with h | h
  · obtain ⟨j, hj, Q, hc, hs, hd⟩ := quarter h1 h hN
    exact ⟨1, by simp, j, List.mem_range.2 (by omega), Q, hc, hs, m, by rwa [← hR]⟩
  · obtain ⟨j, hj, Q, hc, hs, hd⟩ := quarter (P := R - π) (by linarith) (by linarith) hN
    refine ⟨-1, by simp, j, List.mem_range.2 (by omega), Q + π, ?_, ?_, m, ?_⟩
    · rw [cos_add_pi, neg_mul, hc]; unfold wpt; push_cast; ring
    · rw [sin_add_pi, neg_mul, hs]; unfold wpt; push_cast; ring
    · rw [← hR, show R - (Q + π) = R - π - Q by ring]; exact hd

theorem dpt_pos {N : ℕ} (hN : 0 < N) (j : ℕ) : 0 < dpt N j := by
  unfold dpt
  have : (0 : ℤ) < N := by exact_mod_cast hN
  nlinarith [mul_self_nonneg ((j : ℤ) - N)]

/-- The whole number of units of 1/K below the value at a point. -/
def vpt (N : ℕ) (σ : ℤ) (j : ℕ) (l : List (ℤ × ℤ)) : ℤ := (hz (wpt N σ j) (dpt N j) l).1 / (hz (wpt N σ j) (dpt N j) l).2.2

/-- The value at any angle differs by at most lip/N from the value at the point. -/
theorem trig_near (l : List (ℤ × ℤ)) {P Q : ℝ} {m : ℤ} {N : ℕ} (hN : 0 < N) {K σ : ℤ} (hK : 0 < K) {j : ℕ} (hc : cos Q * dpt N j = (wpt N σ j).1)
    (hs : sin Q * dpt N j = (wpt N σ j).2) (h : |P + m * (2 * π) - Q| ≤ 1 / N) :
    |trig 0 (unitsOf K l) P - vpt N σ j l / K| ≤ tlip 0 (unitsOf K l) / N + 1 / K := by
  have h0 : ∀ (l : List (ℚ × ℚ)), (0 : ℝ) ≤ tlip 0 l := by
    have : ∀ (l : List (ℚ × ℚ)) j, 0 ≤ tlip j l := by
      intro l
      induction l with
      | nil => intro j; exact le_refl _
      | cons c l ih => intro j; simp only [tlip]; have := ih (j + 1); positivity
    intro l
    exact_mod_cast this l 0
  have h1 := (trig_lip (unitsOf K l) 0 (P + m * (2 * π)) Q).trans (mul_le_mul_of_nonneg_left h (h0 _))
  rw [trig_periodic] at h1
  obtain ⟨d0, e1, -⟩ := trig_hz l (dpt_pos hN j) hK hc hs
  have hK' : (0 : ℝ) < K := by exact_mod_cast hK
  have h2 : |trig 0 (unitsOf K l) Q - vpt N σ j l / K| ≤ 1 / K := by
    unfold vpt
    obtain ⟨x, hx⟩ : ∃ x, x = (hz (wpt N σ j) (dpt N j) l).1 := ⟨_, rfl⟩
    obtain ⟨D, hD⟩ : ∃ D, D = (hz (wpt N σ j) (dpt N j) l).2.2 := ⟨_, rfl⟩
    rw [← hx, ← hD] at e1
    rw [← hD] at d0
    rw [← hx, ← hD]
    have q1 : x / D * D ≤ x := Int.ediv_mul_le _ d0.ne'
    have q2 : x < (x / D + 1) * D := Int.lt_ediv_add_one_mul_self _ d0
    have D' : (0 : ℝ) < D := by exact_mod_cast d0
    have q1' : ((x / D : ℤ) : ℝ) * D ≤ x := by exact_mod_cast q1
    have q2' : (x : ℝ) < (((x / D : ℤ) : ℝ) + 1) * D := by exact_mod_cast q2
    rw [e1] at q1' q2'
    have g1 : ((x / D : ℤ) : ℝ) ≤ K * trig 0 (unitsOf K l) Q := le_of_mul_le_mul_right (by linarith) D'
    have g2 : K * trig 0 (unitsOf K l) Q < ((x / D : ℤ) : ℝ) + 1 := lt_of_mul_lt_mul_right (by linarith) D'.le
    have e2 : trig 0 (unitsOf K l) Q - ((x / D : ℤ) : ℝ) / K = (K * trig 0 (unitsOf K l) Q - ((x / D : ℤ) : ℝ)) / K := by field_simp
    rw [e2, abs_div, abs_of_pos hK']
    refine div_le_div_of_nonneg_right ?_ hK'.le
    rw [abs_le]; constructor <;> linarith
  have e3 : trig 0 (unitsOf K l) P - vpt N σ j l / K = (trig 0 (unitsOf K l) P - trig 0 (unitsOf K l) Q) + (trig 0 (unitsOf K l) Q - vpt N σ j l / K) := by ring
  rw [e3]
  refine (abs_add_le _ _).trans (add_le_add (h1.trans (le_of_eq (by ring))) h2)

end Verif.Lemmas
