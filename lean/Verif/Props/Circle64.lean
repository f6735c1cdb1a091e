import Mathlib.Tactic
import Verif.Model.Circle64
import Verif.Props.Circle
import Verif.Props.Coord64
import Verif.Props.Fit64
import Verif.Props.Parabolic64
/-!
Property C205: the smallest circle in double precision.
-/
namespace Verif.Props.Circle64v

open Verif.Go.F64 Verif.Model.Kepler64 Verif.Model.Circle64 Verif.Props.Fit64v Verif.Props.Parabolic64v

theorem fl_pos_of {x : ℝ} (h : 0 ≤ x) : 0 ≤ fl x := fl_zero ▸ fl_mono h

/-! ### The exact diameter near a right angle -/

/-- Near a right angle the circumscribed circle has the longest side for diameter. -/
theorem near_right {a b c θ : ℝ} (ha : 0 < a) (hb : 0 < b) (hc : 0 < c) (hθ : θ ≤ 1 / 4) (h : (b * b + c * c - a * a) ^ 2 ≤ θ * (2 * (b * c)) ^ 2) :
    0 < (a + b + c) * (a + b - c) * (b + c - a) * (a + c - b) ∧
    a ≤ 2 * a * b * c / Real.sqrt ((a + b + c) * (a + b - c) * (b + c - a) * (a + c - b)) ∧
    2 * a * b * c / Real.sqrt ((a + b + c) * (a + b - c) * (b + c - a) * (a + c - b)) ≤ a * (1 + θ) := by
  have hP : (a + b + c) * (a + b - c) * (b + c - a) * (a + c - b) = (2 * (b * c)) ^ 2 - (b * b + c * c - a * a) ^ 2 := by ring
  have q0 : 0 < 2 * (b * c) := by positivity
  have θ0 : 0 ≤ θ := by
    by_contra hn
    nlinarith [sq_nonneg (b * b + c * c - a * a), sq_nonneg (2 * (b * c)), pow_pos q0 2]
  rw [hP]
  have e : 2 * a * b * c = a * (2 * (b * c)) := by ring
  rw [e]
  have d0 := sq_nonneg (b * b + c * c - a * a)
  generalize (b * b + c * c - a * a) ^ 2 = d at *
  generalize 2 * (b * c) = q at *
  have q2 : 0 < q ^ 2 := by positivity
  have hpos : 0 < q ^ 2 - d := by nlinarith
  have s0 := Real.sqrt_pos.mpr hpos
  have ss := Real.sq_sqrt hpos.le
  refine ⟨hpos, ?_, ?_⟩
  · rw [le_div_iff₀ s0]
    refine mul_le_mul_of_nonneg_left ?_ ha.le
    exact (Real.sqrt_le_sqrt (by linarith : q ^ 2 - d ≤ q ^ 2)).trans (le_of_eq (Real.sqrt_sq q0.le))
  · rw [div_le_iff₀ s0, mul_assoc]
    refine mul_le_mul_of_nonneg_left ?_ ha.le
    refine le_of_sq_le_sq ?_ (by positivity)
    rw [mul_pow, ss]
    have h1 : q ^ 2 * (1 - θ) ≤ q ^ 2 - d := by nlinarith
    have h2 : 1 ≤ (1 + θ) ^ 2 * (1 - θ) := by nlinarith [mul_nonneg θ0 θ0, mul_nonneg θ0 (by linarith : 0 ≤ 1 / 4 - θ), mul_nonneg (mul_nonneg θ0 θ0) (by linarith : 0 ≤ 1 / 4 - θ)]
    have h3 := mul_le_mul_of_nonneg_left h1 (sq_nonneg (1 + θ))
    have h4 := mul_le_mul_of_nonneg_left h2 q2.le
    nlinarith

/-! ### What the decision says about the sides -/

/-- Two doubles differ by a relative 2⁻⁵³ at least. -/
theorem gap {A X : ℝ} (rA : Rep A) (rX : Rep X) (hA : 0 < A) (h : A < X) : A * (1 + 1 / 2 ^ 53) ≤ X := by
  obtain ⟨m, k, rfl, hm, -⟩ := rA
  obtain ⟨n, l, rfl, hn, -⟩ := rX
  have hm' : (m : ℝ) ≤ 2 ^ 53 := (le_abs_self _).trans (by exact_mod_cast hm)
  have hn' : (n : ℝ) ≤ 2 ^ 53 := (le_abs_self _).trans (by exact_mod_cast hn)
  have step : ∀ (p q : ℤ) (i : ℤ), (p : ℝ) * 2 ^ i < q * 2 ^ i → (2 : ℝ) ^ i ≤ q * 2 ^ i - p * 2 ^ i := by
    intro p q i hpq
    have z := two_zpow_pos i
    have : p < q := by
      have := lt_of_mul_lt_mul_right hpq z.le
      exact_mod_cast this
    have : (p : ℝ) + 1 ≤ q := by exact_mod_cast this
    nlinarith
  rcases le_total k l with hkl | hkl
  · obtain ⟨j, rfl⟩ : ∃ j : ℕ, l = k + j := ⟨(l - k).toNat, by omega⟩
    have e : (n : ℝ) * 2 ^ (k + (j : ℤ)) = ((n * 2 ^ j : ℤ) : ℝ) * 2 ^ k := by
      rw [zpow_add₀ (by norm_num), zpow_natCast]; push_cast; ring
    rw [e] at h ⊢
    have s := step _ _ _ h
    have z := two_zpow_pos k
    have : (m : ℝ) * 2 ^ k / 2 ^ 53 ≤ 2 ^ k := by
      rw [div_le_iff₀ (by positivity)]
      nlinarith
    linarith
  · obtain ⟨j, rfl⟩ : ∃ j : ℕ, k = l + j := ⟨(k - l).toNat, by omega⟩
    have e : (m : ℝ) * 2 ^ (l + (j : ℤ)) = ((m * 2 ^ j : ℤ) : ℝ) * 2 ^ l := by
      rw [zpow_add₀ (by norm_num), zpow_natCast]; push_cast; ring
    rw [e] at h hA ⊢
    have s := step _ _ _ h
    have z := two_zpow_pos l
    have : (n : ℝ) * 2 ^ l / 2 ^ 53 ≤ 2 ^ l := by
      rw [div_le_iff₀ (by positivity)]
      nlinarith
    have : ((m * 2 ^ j : ℤ) : ℝ) * 2 ^ l / 2 ^ 53 ≤ (n : ℝ) * 2 ^ l / 2 ^ 53 := div_le_div_of_nonneg_right h.le (by positivity)
    linarith

/-- Above a double means half a unit above it before rounding. -/
theorem above {A x : ℝ} (rA : Rep A) (hA : 0 < A) (h : A < fl x) : A * (1 + 1 / 2 ^ 54) ≤ x := by
  have g := gap rA (rep_fl x) hA h
  have hx : A < x := by
    by_contra hc
    exact absurd (fl_le rA (not_lt.mp hc)) (not_le.mpr h)
  have b := fl_best x rA
  rw [abs_of_neg (by linarith : A - x < 0)] at b
  have := (abs_le.mp b).2
  norm_num at *
  linarith

theorem sq_round {a z : ℝ} (ha : 1 / 2 ^ 150 ≤ a) (hz : 0 ≤ z) : |fl z - z| ≤ z / 2 ^ 53 + a * a / 2 ^ 200 := by
  have h := fl_tiny z
  rw [abs_of_nonneg hz] at h
  have e : (1 : ℝ) / 2 ^ 500 = 1 / 2 ^ 150 * (1 / 2 ^ 150) / 2 ^ 200 := by
    rw [one_div_mul_one_div, div_div, ← pow_add, ← pow_add]
  have : 1 / 2 ^ 150 * (1 / 2 ^ 150) ≤ a * a := mul_le_mul ha ha (by positivity) ((by positivity : (0 : ℝ) ≤ 1 / 2 ^ 150).trans ha)
  have := div_le_div_of_nonneg_right this (by positivity : (0 : ℝ) ≤ 2 ^ 200)
  linarith

/-- What it means that type II is chosen. -/
theorem two {a b c : ℝ} (ha : 1 / 2 ^ 150 ≤ a) (hb : 0 ≤ b) (hc : 0 ≤ c) (hba : b ≤ a) (hca : c ≤ a) (h : fl (a * a) < squares b c) :
    a / 2 ^ 28 ≤ b ∧ a / 2 ^ 28 ≤ c ∧ -(3 / 2 ^ 53 * (a * a)) ≤ b * b + c * c - a * a := by
  have a0 : 0 < a := lt_of_lt_of_le (by positivity) ha
  have aa : 0 < a * a := by positivity
  have bb : 0 ≤ b * b := mul_nonneg hb hb
  have cc : 0 ≤ c * c := mul_nonneg hc hc
  have ra := abs_le.mp (sq_round ha aa.le)
  have rb := abs_le.mp (sq_round ha bb)
  have rc := abs_le.mp (sq_round ha cc)
  have hp : fl (b * b) ≤ fl (a * a) := fl_mono (mul_le_mul hba hba hb a0.le)
  have hq : fl (c * c) ≤ fl (a * a) := fl_mono (mul_le_mul hca hca hc a0.le)
  have hA : 0 < fl (a * a) := by
    have := ra.1
    clear ha h hp hq rb rc
    generalize fl (a * a) = A at *
    generalize a * a = α at *
    norm_num at this
    linarith
  have hx := above (rep_fl _) hA h
  have sq_le : ∀ z, 0 ≤ z → a * a / 2 ^ 56 ≤ z * z → a / 2 ^ 28 ≤ z := by
    intro z hz h
    refine le_of_sq_le_sq ?_ hz
    rw [sq, sq]
    refine le_trans (le_of_eq ?_) h
    norm_num
    ring
  clear ha h
  generalize fl (a * a) = A at *
  generalize fl (b * b) = p at *
  generalize fl (c * c) = q at *
  refine ⟨sq_le b hb ?_, sq_le c hc ?_, ?_⟩
  all_goals
    clear sq_le
    generalize a * a = α at *
    generalize b * b = β at *
    generalize c * c = γ at *
    norm_num at *
    linarith

/-- What it means that type I is chosen. -/
theorem one {a b c : ℝ} (ha : 1 / 2 ^ 150 ≤ a) (hb : 0 ≤ b) (hc : 0 ≤ c) (hba : b ≤ a) (hca : c ≤ a) (h : squares b c ≤ fl (a * a)) :
    b * b + c * c - a * a ≤ 5 / 2 ^ 53 * (a * a) := by
  have a0 : 0 < a := lt_of_lt_of_le (by positivity) ha
  have aa : 0 < a * a := by positivity
  have bb : 0 ≤ b * b := mul_nonneg hb hb
  have cc : 0 ≤ c * c := mul_nonneg hc hc
  have ra := abs_le.mp (sq_round ha aa.le)
  have rb := abs_le.mp (sq_round ha bb)
  have rc := abs_le.mp (sq_round ha cc)
  have rs := abs_le.mp (sq_round ha (add_nonneg (fl_pos_of bb) (fl_pos_of cc)))
  have hb2 : b * b ≤ a * a := mul_le_mul hba hba hb a0.le
  have hc2 : c * c ≤ a * a := mul_le_mul hca hca hc a0.le
  have h' : fl (fl (b * b) + fl (c * c)) ≤ fl (a * a) := h
  clear ha h
  generalize fl (fl (b * b) + fl (c * c)) = S at *
  generalize fl (a * a) = A at *
  generalize fl (b * b) = p at *
  generalize fl (c * c) = q at *
  generalize a * a = α at *
  generalize b * b = β at *
  generalize c * c = γ at *
  norm_num at *
  linarith

/-- The product of the shorter sides. -/
theorem prod_low {a b c s : ℝ} (a0 : 0 < a) (hb : 0 < b) (hc : 0 < c) (hs : 0 ≤ s) (h1 : s * a ≤ b) (h2 : s * a ≤ c) (h : -(3 / 2 ^ 53 * (a * a)) ≤ b * b + c * c - a * a) :
    0.7 * s * (a * a) ≤ b * c := by
  have key : ∀ x y : ℝ, 0 < x → 0 < y → x ≤ y → s * a ≤ x → -(3 / 2 ^ 53 * (a * a)) ≤ x * x + y * y - a * a → 0.7 * s * (a * a) ≤ x * y := by
    intro x y hx hy hxy hsx hh
    have hy7 : 0.7 * a ≤ y := by
      refine le_of_sq_le_sq ?_ hy.le
      have : x * x ≤ y * y := mul_le_mul hxy hxy hx.le hy.le
      norm_num at *
      nlinarith
    have := mul_le_mul hsx hy7 (by positivity) hx.le
    linarith
  rcases le_total b c with hbc | hbc
  · exact key b c hb hc hbc h1 h
  · have := key c b hc hb hbc h2 (by linarith)
    linarith

/-! ### Rounding in the formula of type II -/

theorem low_fl {x : ℝ} (h : 1 / 2 ^ 900 ≤ x) : x = 0 ∨ 1 / 2 ^ 1000 ≤ |x| := Or.inr (by
  rw [abs_of_pos (lt_of_lt_of_le (by positivity) h)]
  exact (one_div_le_one_div_of_le (by positivity) (pow_le_pow_right₀ (by norm_num) (by norm_num))).trans h)

/-- A difference (x + y) − z that is not too small. -/
theorem diff_rel {a x y z : ℝ} (ha : 1 / 2 ^ 150 ≤ a) (hx : 0 ≤ x) (hy : 0 ≤ y) (hxa : x ≤ a) (hya : y ≤ a) (h : a / 2 ^ 30 ≤ x + y - z) (hz : 0 ≤ z) :
    Rel (fl (fl (x + y) - z)) (x + y - z) (2.5e-7) := by
  have a0 : 0 < a := lt_of_lt_of_le (by positivity) ha
  have d0 : 0 < x + y - z := lt_of_lt_of_le (by positivity) h
  have e : (1 : ℝ) / 2 ^ 900 ≤ 1 / 2 ^ 150 / 2 ^ 30 := by
    rw [div_div, ← pow_add]
    exact one_div_le_one_div_of_le (by positivity) (pow_le_pow_right₀ (by norm_num) (by norm_num))
  have h' : 1 / 2 ^ 900 ≤ x + y - z := e.trans ((div_le_div_of_nonneg_right ha (by positivity)).trans h)
  obtain ⟨δ, hδ, f⟩ := rel_mono (rel_fl (rel_self (x + y)) (by norm_num) (low_fl (by linarith))) (show _ ≤ 1 / 2 ^ 53 by norm_num)
  have r : Rel (fl (x + y) - z) (x + y - z) (1 / 2 ^ 22) := by
    refine ⟨(x + y) * δ / (x + y - z), ?_, ?_⟩
    · rw [abs_div, abs_mul, abs_of_pos d0, abs_of_nonneg (by linarith : 0 ≤ x + y), div_le_iff₀ d0]
      have := mul_le_mul (by linarith : x + y ≤ 2 * a) hδ (abs_nonneg _) (by linarith)
      refine this.trans ?_
      have := mul_le_mul_of_nonneg_left h (by positivity : (0 : ℝ) ≤ 1 / 2 ^ 22)
      refine le_trans (le_of_eq ?_) this
      norm_num
      ring
    · rw [f]
      field_simp
      ring
  exact rel_mono (rel_fl r (by norm_num) (low_fl h')) (by norm_num)

theorem two_rel {a b c : ℝ} (ha : 1 / 2 ^ 150 ≤ a) (hb : a / 2 ^ 28 ≤ b) (hc : a / 2 ^ 28 ≤ c) (hba : b ≤ a) (hca : c ≤ a)
    (h : -(3 / 2 ^ 53 * (a * a)) ≤ b * b + c * c - a * a) :
    ∃ D, diameter a b c = some D ∧ 0 < (a + b + c) * (a + b - c) * (b + c - a) * (a + c - b) ∧
      Rel D (2 * a * b * c / Real.sqrt ((a + b + c) * (a + b - c) * (b + c - a) * (a + c - b))) (9e-7) := by
  have a0 : 0 < a := lt_of_lt_of_le (by positivity) ha
  have b0 : 0 < b := lt_of_lt_of_le (by positivity) hb
  have c0 : 0 < c := lt_of_lt_of_le (by positivity) hc
  have bc := prod_low (s := 1 / 2 ^ 28) a0 b0 c0 (by positivity) (by linarith) (by linarith) h
  have d3 : a / 2 ^ 30 ≤ b + c - a := by
    have e : (b + c - a) * (a + b + c) = (b * b + c * c - a * a) + 2 * (b * c) := by ring
    have h1 : a / 2 ^ 30 * (a + b + c) ≤ a / 2 ^ 30 * (3 * a) := mul_le_mul_of_nonneg_left (by linarith) (by positivity)
    have h2 : a / 2 ^ 30 * (3 * a) ≤ (b + c - a) * (a + b + c) := by
      rw [e, show a / 2 ^ 30 * (3 * a) = 3 / 2 ^ 30 * (a * a) by ring]
      have aa : 0 < a * a := by positivity
      generalize a * a = α at *
      generalize b * c = β at *
      generalize b * b + c * c - α = d at *
      clear ha
      norm_num at *
      linarith
    exact le_of_mul_le_mul_right (h1.trans h2) (by positivity)
  have s28 : a / 2 ^ 30 ≤ a / 2 ^ 28 := div_le_div_of_nonneg_left a0.le (by positivity) (by norm_num)
  have d2 : a / 2 ^ 30 ≤ a + b - c := by linarith
  have d4 : a / 2 ^ 30 ≤ a + c - b := by linarith
  have d1 : a ≤ a + b + c := by linarith
  have r2 := diff_rel ha a0.le b0.le le_rfl hba d2 c0.le
  have r3 := diff_rel ha b0.le c0.le hba hca d3 a0.le
  have r4 := diff_rel ha a0.le c0.le le_rfl hca d4 b0.le
  have pw : ∀ j : ℕ, j ≤ 900 → (1 : ℝ) / 2 ^ 900 ≤ 1 / 2 ^ j := fun j hj => one_div_le_one_div_of_le (by positivity) (pow_le_pow_right₀ (by norm_num) hj)
  have l30 : (1 : ℝ) / 2 ^ 180 ≤ a / 2 ^ 30 := by
    refine le_trans (le_of_eq ?_) (div_le_div_of_nonneg_right ha (by positivity))
    rw [div_div, ← pow_add]
  have m2 : ∀ (x y : ℝ) (i j : ℕ), 1 / 2 ^ i ≤ x → 1 / 2 ^ j ≤ y → 1 / 2 ^ (i + j) ≤ x * y := by
    intro x y i j hx hy
    rw [pow_add, ← one_div_mul_one_div]
    exact mul_le_mul hx hy (by positivity) ((by positivity : (0 : ℝ) ≤ 1 / 2 ^ i).trans hx)
  have r0 := rel_mono (rel_fl (rel_self (a + b)) (by norm_num) (low_fl ((pw 150 (by norm_num)).trans (by linarith)))) (show _ ≤ 1 / 2 ^ 53 by norm_num)
  have r1 : Rel (fl (fl (a + b) + c)) (a + b + c) (3 / 2 ^ 53) := by
    obtain ⟨δ, hδ, f⟩ := r0
    have : Rel (fl (a + b) + c) (a + b + c) (1 / 2 ^ 53) := by
      refine ⟨(a + b) * δ / (a + b + c), ?_, ?_⟩
      · rw [abs_div, abs_mul, abs_of_pos (by positivity : 0 < a + b), abs_of_pos (by positivity : 0 < a + b + c), div_le_iff₀ (by positivity)]
        have := mul_le_mul (by linarith : a + b ≤ a + b + c) hδ (abs_nonneg _) (by positivity)
        linarith
      · rw [f]
        field_simp
        ring
    exact rel_mono (rel_fl this (by norm_num) (low_fl ((pw 150 (by norm_num)).trans (ha.trans d1)))) (by norm_num)
  have w1 : 1 / 2 ^ 150 ≤ a + b + c := ha.trans d1
  have w2 := l30.trans d2
  have w3 := l30.trans d3
  have w4 := l30.trans d4
  have v2 := m2 _ _ 150 180 w1 w2
  have v3 := m2 _ _ (150 + 180) 180 v2 w3
  have v4 := m2 _ _ (150 + 180 + 180) 180 v3 w4
  have p1 := rel_mono (rel_fl (rel_mul r1 r2) (by norm_num) (low_fl ((pw _ (by norm_num)).trans v2))) (show _ ≤ 2.51e-7 by norm_num)
  have p2 := rel_mono (rel_fl (rel_mul p1 r3) (by norm_num) (low_fl ((pw _ (by norm_num)).trans v3))) (show _ ≤ 5.02e-7 by norm_num)
  have p3 := rel_mono (rel_fl (rel_mul p2 r4) (by norm_num) (low_fl ((pw _ (by norm_num)).trans v4))) (show _ ≤ 7.6e-7 by norm_num)
  have P0 : 0 < (a + b + c) * (a + b - c) * (b + c - a) * (a + c - b) := lt_of_lt_of_le (by positivity) v4
  have area0 : 0 < area a b c := by
    obtain ⟨δ, hδ, f⟩ := p3
    have : area a b c = (a + b + c) * (a + b - c) * (b + c - a) * (a + c - b) * (1 + δ) := f
    rw [this]
    refine mul_pos P0 ?_
    have := (abs_le.mp hδ).1
    norm_num at *
    linarith
  have hE : a ≤ 2 * a * b * c / Real.sqrt ((a + b + c) * (a + b - c) * (b + c - a) * (a + c - b)) := by
    rw [le_div_iff₀ (Real.sqrt_pos.mpr P0)]
    have : Real.sqrt ((a + b + c) * (a + b - c) * (b + c - a) * (a + c - b)) ≤ 2 * (b * c) := by
      rw [Real.sqrt_le_left (by positivity)]
      have : (a + b + c) * (a + b - c) * (b + c - a) * (a + c - b) = (2 * (b * c)) ^ 2 - (b * b + c * c - a * a) ^ 2 := by ring
      rw [this]
      linarith [sq_nonneg (b * b + c * c - a * a)]
    have := mul_le_mul_of_nonneg_left this a0.le
    linarith
  have sq1 : 1 / 2 ^ 345 ≤ Real.sqrt ((a + b + c) * (a + b - c) * (b + c - a) * (a + c - b)) := by
    refine Real.le_sqrt_of_sq_le ?_
    refine le_trans (le_of_eq ?_) v4
    rw [one_div, inv_pow, ← pow_mul, one_div]
  have s1 := rel_mono (rel_fl (rel_sqrt p3 P0.le (by norm_num)) (by norm_num) (low_fl ((pw 345 (by norm_num)).trans sq1))) (show _ ≤ 7.61e-7 by norm_num)
  have l28 : ∀ x, a / 2 ^ 28 ≤ x → 1 / 2 ^ 180 ≤ x := fun x hx => l30.trans (s28.trans hx)
  have u1 : (1 : ℝ) / 2 ^ 150 ≤ 2 * a := by linarith
  have u2 := m2 _ _ 150 180 u1 (l28 b hb)
  have u3 := m2 _ _ (150 + 180) 180 u2 (l28 c hc)
  have n1 := rel_mono (rel_fl (rel_self (2 * a)) (by norm_num) (low_fl ((pw _ (by norm_num)).trans u1))) (show _ ≤ 1 / 2 ^ 53 by norm_num)
  have n2 := rel_mono (rel_fl (rel_mul n1 (rel_self b)) (by norm_num) (low_fl ((pw _ (by norm_num)).trans u2))) (show _ ≤ 3 / 2 ^ 53 by norm_num)
  have n3 := rel_mono (rel_fl (rel_mul n2 (rel_self c)) (by norm_num) (low_fl ((pw _ (by norm_num)).trans u3))) (show _ ≤ 5 / 2 ^ 53 by norm_num)
  have fin := rel_mono (rel_fl (rel_div n3 s1 (Real.sqrt_pos.mpr P0).ne' (by norm_num)) (by norm_num) (low_fl ((pw 150 (by norm_num)).trans (ha.trans hE)))) (show _ ≤ 9e-7 by norm_num)
  refine ⟨_, ?_, P0, fin⟩
  unfold diameter
  rw [if_neg (not_le.mpr area0)]
  rfl

/-! ### The result against the exact one -/

theorem core {a b c : ℝ} (ha : 1 / 2 ^ 150 ≤ a) (hb : 0 ≤ b) (hc : 0 ≤ c) (hba : b ≤ a) (hca : c ≤ a) :
    ∃ D, (verdict (a, b, c) (squares b c)).1 = some D ∧ |D - (sorted a b c).1| ≤ 1e-6 * (sorted a b c).1 := by
  have a0 : 0 < a := lt_of_lt_of_le (by positivity) ha
  unfold verdict
  simp only []
  by_cases h : fl (a * a) ≥ squares b c
  · rw [if_pos h]
    refine ⟨a, rfl, ?_⟩
    have hd := one ha hb hc hba hca h
    unfold sorted
    by_cases he : a * a ≥ b * b + c * c
    · rw [if_pos he]
      show |a - a| ≤ 1e-6 * a
      rw [sub_self, abs_zero]
      positivity
    · rw [if_neg he]
      push Not at he
      obtain ⟨-, b0, c0, -⟩ := heron_pos hb hc hba hca he
      have key : (b * b + c * c - a * a) ^ 2 ≤ 5 / 2 ^ 53 * (2 * (b * c)) ^ 2 := by
        have d0 : 0 < b * b + c * c - a * a := by linarith
        have hk : ∀ x y : ℝ, 0 < x → x ≤ y → y ≤ a → b * b + c * c = x * x + y * y → b * c = x * y →
            (b * b + c * c - a * a) ^ 2 ≤ 5 / 2 ^ 53 * (2 * (b * c)) ^ 2 := by
          intro x y hx hxy hya e1 e2
          have hx2 : b * b + c * c - a * a ≤ x * x := by nlinarith
          have hy2 : a * a ≤ 2 * (y * y) := by nlinarith
          rw [sq]
          refine (mul_le_mul hd hx2 d0.le (by positivity)).trans ?_
          rw [e2]
          have := mul_le_mul_of_nonneg_left hy2 (by positivity : 0 ≤ 5 / 2 ^ 53 * (x * x))
          nlinarith [mul_nonneg (mul_self_nonneg x) (mul_self_nonneg y)]
        rcases le_total b c with hbc | hbc
        · exact hk b c b0 hbc hca rfl rfl
        · exact hk c b c0 hbc hba (by ring) (by ring)
      obtain ⟨-, l, u⟩ := near_right a0 b0 c0 (by norm_num) key
      show |a - 2 * a * b * c / Real.sqrt ((a + b + c) * (a + b - c) * (b + c - a) * (a + c - b))| ≤ 1e-6 * (2 * a * b * c / Real.sqrt ((a + b + c) * (a + b - c) * (b + c - a) * (a + c - b)))
      generalize 2 * a * b * c / Real.sqrt ((a + b + c) * (a + b - c) * (b + c - a) * (a + c - b)) = E at *
      clear ha hd key
      rw [abs_le]
      constructor <;> norm_num at * <;> linarith
  · rw [if_neg h]
    push Not at h
    obtain ⟨hb1, hc1, hd⟩ := two ha hb hc hba hca h
    have b0 : 0 < b := lt_of_lt_of_le (by positivity) hb1
    have c0 : 0 < c := lt_of_lt_of_le (by positivity) hc1
    obtain ⟨D, hD, P0, δ, hδ, f⟩ := two_rel ha hb1 hc1 hba hca hd
    refine ⟨D, hD, ?_⟩
    have E0 : 0 < 2 * a * b * c / Real.sqrt ((a + b + c) * (a + b - c) * (b + c - a) * (a + c - b)) := div_pos (by positivity) (Real.sqrt_pos.mpr P0)
    unfold sorted
    by_cases he : a * a ≥ b * b + c * c
    · rw [if_pos he]
      have bc := prod_low (s := 1 / 2 ^ 28) a0 b0 c0 (by positivity) (by linarith) (by linarith) hd
      have key : (b * b + c * c - a * a) ^ 2 ≤ 1 / 2 ^ 40 * (2 * (b * c)) ^ 2 := by
        have d0 : b * b + c * c - a * a ≤ 0 := by linarith
        have aa : 0 < a * a := by positivity
        have : |b * b + c * c - a * a| ≤ 1 / 2 ^ 20 * (2 * (b * c)) := by
          rw [abs_of_nonpos d0]
          clear ha hb1 hc1
          generalize a * a = α at *
          generalize b * c = β at *
          generalize b * b + c * c - α = d at *
          norm_num at *
          linarith
        have := mul_self_le_mul_self (abs_nonneg _) this
        rw [abs_mul_abs_self] at this
        refine le_trans (le_of_eq (sq _)) (this.trans (le_of_eq ?_))
        norm_num
        ring
      obtain ⟨-, l, u⟩ := near_right a0 b0 c0 (by norm_num) key
      show |D - a| ≤ 1e-6 * a
      rw [f]
      generalize 2 * a * b * c / Real.sqrt ((a + b + c) * (a + b - c) * (b + c - a) * (a + c - b)) = E at *
      have hEd : |E * δ| ≤ E * 9e-7 := by
        rw [abs_mul, abs_of_pos E0]
        exact mul_le_mul_of_nonneg_left hδ E0.le
      have hEd' := abs_le.mp hEd
      rw [mul_add, mul_one]
      generalize E * δ = w at *
      clear ha hb1 hc1 hd key bc
      rw [abs_le]
      constructor <;> norm_num at * <;> linarith
    · rw [if_neg he]
      show |D - 2 * a * b * c / Real.sqrt ((a + b + c) * (a + b - c) * (b + c - a) * (a + c - b))| ≤ 1e-6 * (2 * a * b * c / Real.sqrt ((a + b + c) * (a + b - c) * (b + c - a) * (a + c - b)))
      rw [f]
      generalize 2 * a * b * c / Real.sqrt ((a + b + c) * (a + b - c) * (b + c - a) * (a + c - b)) = E at *
      rw [show E * (1 + δ) - E = δ * E by ring, abs_mul, abs_of_pos E0]
      refine mul_le_mul_of_nonneg_right (hδ.trans (by norm_num)) E0.le

/-- The exchanges are those of the exact model. -/
theorem order_eq (a b c : ℝ) : Verif.Model.Circle.ofSides a b c = sorted (order a b c).1 (order a b c).2.1 (order a b c).2.2 ∧
    (order a b c).2.1 ≤ (order a b c).1 ∧ (order a b c).2.2 ≤ (order a b c).1 ∧
    (0 ≤ a → 0 ≤ b → 0 ≤ c → 0 ≤ (order a b c).2.1 ∧ 0 ≤ (order a b c).2.2) ∧ a ≤ (order a b c).1 ∧ b ≤ (order a b c).1 ∧ c ≤ (order a b c).1 := by
  unfold Verif.Model.Circle.ofSides sorted order
  by_cases h1 : b > a
  · by_cases h2 : c > b
    · simp only [if_pos h1, if_pos h2]
      exact ⟨trivial, by linarith, by linarith, fun x y z => ⟨x, y⟩, by linarith, by linarith, by linarith⟩
    · simp only [if_pos h1, if_neg h2]
      exact ⟨trivial, by linarith, by linarith, fun x y z => ⟨x, z⟩, by linarith, by linarith, by linarith⟩
  · by_cases h2 : c > a
    · simp only [if_neg h1, if_pos h2]
      exact ⟨trivial, by linarith, by linarith, fun x y z => ⟨y, x⟩, by linarith, by linarith, by linarith⟩
    · simp only [if_neg h1, if_neg h2]
      exact ⟨trivial, by linarith, by linarith, fun x y z => ⟨y, z⟩, by linarith, by linarith, by linarith⟩

/-- C205.  Without fusing, the diameter is a number for any three separations, and within 1e-6 of itself of the diameter of the smallest circle; the
two may differ in the type only near a right angle, where the two formulas agree.  Missing: fused products, see `C205_violation`. -/
theorem C205_plain_partial {a b c : ℝ} (ha : 0 ≤ a) (hb : 0 ≤ b) (hc : 0 ≤ c) (h : 1 / 2 ^ 150 ≤ a ∨ 1 / 2 ^ 150 ≤ b ∨ 1 / 2 ^ 150 ≤ c) :
    Result a b c (plain a b c) ∧
    ∃ D, (plain a b c).1 = some D ∧ |D - (Verif.Model.Circle.ofSides a b c).1| ≤ 1e-6 * (Verif.Model.Circle.ofSides a b c).1 := by
  obtain ⟨e, h1, h2, h3, h4, h5, h6⟩ := order_eq a b c
  refine ⟨⟨_, Or.inl (Or.inl rfl), rfl⟩, ?_⟩
  rw [e]
  obtain ⟨h7, h8⟩ := h3 ha hb hc
  exact core (by
    rcases h with h | h | h
    · exact h.trans h4
    · exact h.trans h5
    · exact h.trans h6) h7 h8 h1 h2

/-- The rounding of 1 − 2⁻²⁶ + 2⁻⁵⁴, half way between two doubles. -/
theorem tie : fl ((1 - 1 / 2 ^ 27) * (1 - 1 / 2 ^ 27)) = 1 - 1 / 2 ^ 26 := by
  have hl : Int.log 2 |((1 - 1 / 2 ^ 27) * (1 - 1 / 2 ^ 27) : ℝ)| = -1 := by
    obtain ⟨l, u⟩ := log_spec (x := (1 - 1 / 2 ^ 27) * (1 - 1 / 2 ^ 27)) (by norm_num)
    rw [abs_of_pos (by norm_num : (0 : ℝ) < (1 - 1 / 2 ^ 27) * (1 - 1 / 2 ^ 27))] at l u ⊢
    generalize Int.log 2 ((1 - 1 / 2 ^ 27) * (1 - 1 / 2 ^ 27) : ℝ) = L at *
    have h1 : L < 0 := by
      have : (2 : ℝ) ^ L < 2 ^ (0 : ℤ) := lt_of_le_of_lt l (by norm_num)
      exact (zpow_lt_zpow_iff_right₀ (by norm_num)).mp this
    have h2 : -1 < L + 1 := by
      have : (2 : ℝ) ^ (-1 : ℤ) < 2 ^ (L + 1) := lt_trans (by norm_num) u
      exact (zpow_lt_zpow_iff_right₀ (by norm_num)).mp this
    omega
  have he : expo ((1 - 1 / 2 ^ 27) * (1 - 1 / 2 ^ 27)) = -53 := by
    unfold expo
    rw [hl]
    norm_num
  unfold fl
  rw [he]
  have hx : ((1 - 1 / 2 ^ 27) * (1 - 1 / 2 ^ 27) : ℝ) / 2 ^ (-53 : ℤ) = ((2 ^ 53 - 2 ^ 27 : ℤ) : ℝ) + 1 / 2 := by push_cast; norm_num
  have hf : ⌊((2 ^ 53 - 2 ^ 27 : ℤ) : ℝ) + 1 / 2⌋ = 2 ^ 53 - 2 ^ 27 := by
    rw [Int.floor_intCast_add]
    norm_num
  have hr : rne (((2 ^ 53 - 2 ^ 27 : ℤ) : ℝ) + 1 / 2) = 2 ^ 53 - 2 ^ 27 := by
    unfold rne
    have hfr : Int.fract (((2 ^ 53 - 2 ^ 27 : ℤ) : ℝ) + 1 / 2) = 1 / 2 := by
      rw [Int.fract_intCast_add, Int.fract_eq_self.mpr (by norm_num)]
    rw [hfr, hf, if_neg (lt_irrefl _), if_neg (lt_irrefl _), if_pos (by decide)]
  rw [hx, hr]
  push_cast
  norm_num

/-- C205.  The diameter should be finite however products are fused.  For two equal separations of 1 − 2⁻²⁷ and a third of 2⁻¹⁰⁰ radians, and
`b*b` fused with the sum, the code chooses type II and divides by zero. -/
theorem C205_violation : ∃ a c : ℝ, Rep a ∧ Rep c ∧ a = 1 - 1 / 2 ^ 27 ∧ c = 1 / 2 ^ 100 ∧ Result a a c (none, false) := by
  have rA : Rep (1 - 1 / 2 ^ 27) := ⟨2 ^ 27 - 1, -27, by norm_num, by norm_num, by norm_num⟩
  refine ⟨_, _, rA, ⟨1, -100, by norm_num, by norm_num, by norm_num⟩, rfl, rfl, ?_⟩
  set a : ℝ := 1 - 1 / 2 ^ 27 with ha
  set c : ℝ := 1 / 2 ^ 100 with hc
  have ho : order a a c = (a, a, c) := by
    unfold order
    have h1 : ¬ a > a := lt_irrefl _
    have h2 : ¬ c > a := by rw [ha, hc]; norm_num
    simp only [if_neg h1, if_neg h2]
  have hcc : fl (c * c) = c * c := fl_rep ⟨1, -200, by rw [hc]; norm_num, by norm_num, by norm_num⟩
  have hS : fl (c * c + a * a) = 1 - 1 / 2 ^ 26 + 1 / 2 ^ 53 := by
    refine Verif.Props.Coord64v.fl_eq 53 (2 ^ 53 - 2 ^ 27 + 1) (by norm_num) (by push_cast; norm_num) (by norm_num) ?_ ?_
    · rw [ha, hc]; norm_num
    · rw [ha, hc, abs_lt]; constructor <;> norm_num
  have hbc : fl (a + c) = a := by
    refine Verif.Props.Coord64v.fl_eq 53 (2 ^ 53 - 2 ^ 26) (by norm_num) (by rw [ha]; push_cast; norm_num) (by norm_num) ?_ ?_
    · rw [ha, hc]; norm_num
    · rw [add_sub_cancel_left, hc, abs_of_pos (by norm_num)]; norm_num
  have har : area a a c = 0 := by
    unfold area
    simp only [hbc, sub_self, fl_zero, mul_zero, zero_mul]
  refine ⟨1 - 1 / 2 ^ 26 + 1 / 2 ^ 53, ?_, ?_⟩
  · rw [ho]
    refine Or.inr (Or.inr ?_)
    show _ = fl (fl (c * c) + a * a)
    rw [hcc, hS]
  · rw [ho]
    unfold verdict diameter
    have ht : fl (a * a) = 1 - 1 / 2 ^ 26 := tie
    simp only []
    rw [ht, if_neg (by norm_num), har, if_pos le_rfl]

/-- The hypotheses can be met: an acute triangle, of type II. -/
theorem C205_example : (plain 5 6 7).2 = false ∧ (0 : ℝ) ≤ 5 ∧ (0 : ℝ) ≤ 6 ∧ (0 : ℝ) ≤ 7 ∧ (1 : ℝ) / 2 ^ 150 ≤ 5 := by
  have f : ∀ n : ℤ, |n| ≤ 2 ^ 53 → fl (n : ℝ) = n := fun n hn => fl_rep (rep_int hn)
  have h1 : fl (7 * 7) = 49 := by have := f 49 (by norm_num); norm_num at *; exact this
  have h2 : fl (6 * 6) = 36 := by have := f 36 (by norm_num); norm_num at *; exact this
  have h3 : fl (5 * 5) = 25 := by have := f 25 (by norm_num); norm_num at *; exact this
  have h4 : fl (36 + 25) = 61 := by have := f 61 (by norm_num); norm_num at *; exact this
  have h5 : fl (25 + 36) = 61 := by have := f 61 (by norm_num); norm_num at *; exact this
  refine ⟨?_, by norm_num, by norm_num, by norm_num, by norm_num⟩
  have g1 : (6 : ℝ) > 5 := by norm_num
  have g2 : (7 : ℝ) > 6 := by norm_num
  unfold plain verdict squares order
  simp only [if_pos g1, if_pos g2]
  rw [h1, h2, h3]
  first
    | rw [h4, if_neg (by norm_num)]
    | rw [h5, if_neg (by norm_num)]

end Verif.Props.Circle64v
