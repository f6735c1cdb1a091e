import Mathlib.Tactic
import Verif.Model.Speed64
import Verif.Model.Elliptic
import Verif.Props.Parabolic64
/-!
Property C204: the speeds on an elliptic orbit in double precision.
-/
namespace Verif.Props.Speed64v

open Verif.Go.F64 Verif.Model.Speed64 Verif.Props.Parabolic64v

theorem pow_low {x : ℝ} (h : 1 / 2 ^ 300 ≤ x) : x = 0 ∨ 1 / 2 ^ 1000 ≤ |x| := Or.inr (by
  rw [abs_of_pos (lt_of_lt_of_le (by positivity) h)]
  exact (one_div_le_one_div_of_le (by positivity) (pow_le_pow_right₀ (by norm_num) (by norm_num))).trans h)

/-- No double lies between 1 − 2⁻⁵³ and 1. -/
theorem below_one {e : ℝ} (h : Rep e) (h1 : e < 1) : e ≤ 1 - 1 / 2 ^ 53 := by
  obtain ⟨m, k, rfl, hm, -⟩ := h
  by_cases hk : -53 ≤ k
  · obtain ⟨j, rfl⟩ : ∃ j : ℕ, k = -53 + j := ⟨(k + 53).toNat, by omega⟩
    rw [zpow_add₀ (by norm_num), zpow_natCast] at h1 ⊢
    have e1 : (m : ℝ) * (2 ^ (-53 : ℤ) * 2 ^ j) = ((m * 2 ^ j : ℤ) : ℝ) / 2 ^ 53 := by push_cast; norm_num; ring
    rw [e1] at h1 ⊢
    rw [div_lt_one (by positivity)] at h1
    have : m * 2 ^ j + 1 ≤ 2 ^ 53 := by
      have : m * 2 ^ j < 2 ^ 53 := by exact_mod_cast h1
      omega
    have : ((m * 2 ^ j : ℤ) : ℝ) + 1 ≤ 2 ^ 53 := by exact_mod_cast this
    rw [div_le_iff₀ (by positivity)]
    norm_num at *
    linarith
  · push Not at hk
    have h3 : (2 : ℝ) ^ k ≤ 2 ^ (-54 : ℤ) := zpow_le_zpow_right₀ (by norm_num) (by omega)
    have h4 : |(m : ℝ)| ≤ 2 ^ 53 := by exact_mod_cast hm
    have h5 : (m : ℝ) * 2 ^ k ≤ 2 ^ 53 * 2 ^ (-54 : ℤ) := mul_le_mul ((le_abs_self _).trans h4) h3 (by positivity) (by positivity)
    refine h5.trans (by norm_num)

/-- From the argument of the root to the speed. -/
theorem finish {c x X κ : ℝ} (hc : 1 ≤ c) (hX : 1 / 2 ^ 300 ≤ X) (h : Rel x X κ) (hκ : κ ≤ 1 / 8) :
    ∃ v, (sqrt64 x).map (fun y => fl (fl c * y)) = some v ∧ 0 ≤ v ∧ |v - c * Real.sqrt X| ≤ (κ + 3.5 / 2 ^ 53) * (c * Real.sqrt X) := by
  have hX0 : 0 < X := lt_of_lt_of_le (by positivity) hX
  have hκ0 : 0 ≤ κ := by obtain ⟨δ, hδ, -⟩ := h; exact (abs_nonneg _).trans hδ
  have hx : 0 ≤ x := by
    obtain ⟨δ, hδ, rfl⟩ := h
    have := abs_le.mp hδ
    exact mul_nonneg hX0.le (by linarith)
  have low : 1 / 2 ^ 300 ≤ Real.sqrt X := by
    refine Real.le_sqrt_of_sq_le (le_trans ?_ hX)
    rw [sq]
    refine mul_le_of_le_one_left (by positivity) ?_
    rw [div_le_one (by positivity)]
    exact one_le_pow₀ (by norm_num)
  have one : (1 : ℝ) / 2 ^ 300 ≤ 1 := by
    rw [div_le_one (by positivity)]
    exact one_le_pow₀ (by norm_num)
  have s0 : 0 < Real.sqrt X := Real.sqrt_pos.mpr hX0
  have r1 := rel_fl (rel_sqrt h hX0.le (by linarith)) (by linarith) (pow_low low)
  have r2 := rel_mono (rel_fl (rel_self c) (by norm_num) (pow_low (one.trans hc))) (show _ ≤ 1 / 2 ^ 53 by norm_num)
  have r3 := rel_fl (rel_mul r2 r1) (by norm_num; linarith) (pow_low (low.trans (le_mul_of_one_le_left s0.le hc)))
  refine ⟨fl (fl c * fl (Real.sqrt x)), ?_, ?_, ?_⟩
  · unfold sqrt64
    rw [if_neg (by linarith)]
    rfl
  · have f : ∀ z : ℝ, 0 ≤ z → 0 ≤ fl z := fun z hz => fl_zero ▸ fl_mono hz
    exact f _ (mul_nonneg (f _ (by linarith)) (f _ (Real.sqrt_nonneg _)))
  · obtain ⟨δ, hδ, e⟩ := r3
    rw [e, show ∀ z : ℝ, z * (1 + δ) - z = δ * z from fun z => by ring, abs_mul, abs_of_pos (mul_pos (by linarith) s0 : 0 < c * Real.sqrt X)]
    refine mul_le_mul_of_nonneg_right (hδ.trans ?_) (by positivity)
    norm_num
    linarith

/-- The quotient under the root at the two ends of the axis. -/
theorem ends {a x y X Y : ℝ} (ha : 1 / 2 ^ 100 ≤ a) (ha2 : a ≤ 2 ^ 100) (hx : Rel x X (1 / 2 ^ 53)) (hy : Rel y Y (1 / 2 ^ 53))
    (x1 : 1 / 2 ^ 53 ≤ X) (y1 : 1 / 2 ^ 53 ≤ Y) (y2 : Y ≤ 2) : 1 / 2 ^ 300 ≤ X / Y / a ∧ Rel (fl (fl (x / y) / a)) (X / Y / a) (4.1 / 2 ^ 53) := by
  have ha0 : 0 < a := lt_of_lt_of_le (by positivity) ha
  have y0 : 0 < Y := lt_of_lt_of_le (by positivity) y1
  have b1 : 1 / 2 ^ 54 ≤ X / Y := by
    rw [le_div_iff₀ y0]
    norm_num at *
    linarith
  have b2 : 1 / 2 ^ 154 ≤ X / Y / a := by
    rw [le_div_iff₀ ha0]
    refine le_trans ?_ b1
    refine (mul_le_mul_of_nonneg_left ha2 (by positivity)).trans (by norm_num)
  have c : ∀ k : ℕ, k ≤ 300 → (1 : ℝ) / 2 ^ 300 ≤ 1 / 2 ^ k := fun k hk =>
    one_div_le_one_div_of_le (by positivity) (pow_le_pow_right₀ (by norm_num) hk)
  have r1 := rel_mono (rel_fl (rel_div hx hy y0.ne' (by norm_num)) (by norm_num) (pow_low ((c 54 (by norm_num)).trans b1))) (show _ ≤ 3.05 / 2 ^ 53 by norm_num)
  exact ⟨(c 154 (by norm_num)).trans b2,
    rel_mono (rel_fl (rel_div r1 (rel_self a) ha0.ne' (by norm_num)) (by norm_num) (pow_low ((c 154 (by norm_num)).trans b2))) (by norm_num)⟩

/-- C204.  The speeds at perihelion and aphelion are numbers, with an error of 8 units of rounding, for every closed orbit. -/
theorem C204_apsides {a e : ℝ} (ha : 1 / 2 ^ 100 ≤ a) (ha2 : a ≤ 2 ^ 100) (re : Rep e) (h0 : 0 ≤ e) (h1 : e < 1) :
    (∃ v, VPerihelion a e = some v ∧ |v - Verif.Model.Elliptic.VPerihelion a e| ≤ 8 / 2 ^ 53 * Verif.Model.Elliptic.VPerihelion a e) ∧
    (∃ v, VAphelion a e = some v ∧ |v - Verif.Model.Elliptic.VAphelion a e| ≤ 8 / 2 ^ 53 * Verif.Model.Elliptic.VAphelion a e) := by
  have hb := below_one re h1
  have one : (1 : ℝ) / 2 ^ 300 ≤ 1 / 2 ^ 53 := one_div_le_one_div_of_le (by positivity) (pow_le_pow_right₀ (by norm_num) (by norm_num))
  have m0 : 1 / 2 ^ 53 ≤ 1 - e := by linarith
  have p0 : 1 / 2 ^ 53 ≤ 1 + e := by norm_num at *; linarith
  have rm := rel_mono (rel_fl (rel_self (1 - e)) (by norm_num) (pow_low (one.trans m0))) (show _ ≤ 1 / 2 ^ 53 by norm_num)
  have rp := rel_mono (rel_fl (rel_self (1 + e)) (by norm_num) (pow_low (one.trans p0))) (show _ ≤ 1 / 2 ^ 53 by norm_num)
  obtain ⟨l1, q1⟩ := ends ha ha2 rp rm p0 m0 (by linarith)
  obtain ⟨l2, q2⟩ := ends ha ha2 rm rp m0 p0 (by linarith)
  obtain ⟨v1, a1, -, b1⟩ := finish (c := 29.7847) (by norm_num) l1 q1 (by norm_num)
  obtain ⟨v2, a2, -, b2⟩ := finish (c := 29.7847) (by norm_num) l2 q2 (by norm_num)
  refine ⟨⟨v1, a1, b1.trans (mul_le_mul_of_nonneg_right (by norm_num) (by positivity))⟩, ⟨v2, a2, b2.trans (mul_le_mul_of_nonneg_right (by norm_num) (by positivity))⟩⟩

/-- C204.  `Velocity` is a number for every distance an orbit with the semimajor axis can have, to the last bit: rounding never makes the
argument of the root negative. -/
theorem C204_number {a r : ℝ} (hr : 0 < r) (h : r ≤ 2 * a) : ∃ v, Velocity a r = some v ∧ 0 ≤ v := by
  have ha : 0 < a := by linarith
  have h1 : 0.5 / a ≤ 1 / r := by
    rw [div_le_div_iff₀ ha hr]
    linarith
  have f : ∀ z : ℝ, 0 ≤ z → 0 ≤ fl z := fun z hz => fl_zero ▸ fl_mono hz
  have h2 := f _ (by linarith [fl_mono h1] : 0 ≤ fl (1 / r) - fl (0.5 / a))
  refine ⟨_, by unfold Velocity sqrt64; rw [if_neg (by linarith)]; rfl, f _ (mul_nonneg (f _ (by norm_num)) (f _ (Real.sqrt_nonneg _)))⟩

/-- C204.  The error of `Velocity` is that of the difference of the two fractions, and five more units of rounding. -/
theorem C204_error {a r : ℝ} (ha : 1 / 2 ^ 100 ≤ a) (ha2 : a ≤ 2 ^ 100) (hr : 1 / 2 ^ 100 ≤ r) (h : 2 * a + r ≤ 2 ^ 49 * (2 * a - r)) :
    ∃ v, Velocity a r = some v ∧ |v - Verif.Model.Elliptic.Velocity a r| ≤ ((2 * a + r) / (2 * a - r) + 5) / 2 ^ 53 * Verif.Model.Elliptic.Velocity a r := by
  have ha0 : 0 < a := lt_of_lt_of_le (by positivity) ha
  have hr0 : 0 < r := lt_of_lt_of_le (by positivity) hr
  have hd : 0 < 2 * a - r := by
    by_contra hc
    have : 0 < 2 * a + r := by positivity
    nlinarith
  have c : ∀ k : ℕ, k ≤ 300 → (1 : ℝ) / 2 ^ 300 ≤ 1 / 2 ^ k := fun k hk =>
    one_div_le_one_div_of_le (by positivity) (pow_le_pow_right₀ (by norm_num) hk)
  have l1 : 1 / 2 ^ 101 ≤ 1 / r := by
    refine one_div_le_one_div_of_le hr0 ?_
    norm_num at *
    linarith
  have l2 : 1 / 2 ^ 101 ≤ 0.5 / a := by
    rw [le_div_iff₀ ha0]
    refine (mul_le_mul_of_nonneg_left ha2 (by positivity)).trans (by norm_num)
  have e : 1 / r - 0.5 / a = (2 * a - r) / (2 * a * r) := by field_simp; ring
  have e' : 1 / r + 0.5 / a = (2 * a + r) / (2 * a * r) := by field_simp; ring
  set C := (2 * a + r) / (2 * a - r) with hC
  have hC1 : C ≤ 2 ^ 49 := by rw [hC, div_le_iff₀ hd]; exact h
  have hC0 : 0 < C := div_pos (by positivity) hd
  have hsum : 1 / r + 0.5 / a = C * (1 / r - 0.5 / a) := by rw [e, e', hC]; field_simp
  have l3 : 1 / 2 ^ 150 ≤ 1 / r - 0.5 / a := by
    have h1 : 1 / r + 0.5 / a ≤ 2 ^ 49 * (1 / r - 0.5 / a) := by
      rw [hsum]
      refine mul_le_mul_of_nonneg_right hC1 ?_
      rw [e]
      positivity
    norm_num at *
    linarith
  obtain ⟨δ1, d1, f1⟩ := rel_mono (rel_fl (rel_self (1 / r)) (by norm_num) (pow_low ((c 101 (by norm_num)).trans l1))) (show _ ≤ 1 / 2 ^ 53 by norm_num)
  obtain ⟨δ2, d2, f2⟩ := rel_mono (rel_fl (rel_self (0.5 / a)) (by norm_num) (pow_low ((c 101 (by norm_num)).trans l2))) (show _ ≤ 1 / 2 ^ 53 by norm_num)
  have p3 : 0 < 1 / r - 0.5 / a := lt_of_lt_of_le (by positivity) l3
  have rd : Rel (fl (1 / r) - fl (0.5 / a)) (1 / r - 0.5 / a) (C / 2 ^ 53) := by
    refine ⟨(1 / r * δ1 - 0.5 / a * δ2) / (1 / r - 0.5 / a), ?_, ?_⟩
    · rw [abs_div, abs_of_pos p3, div_le_iff₀ p3]
      refine (abs_sub _ _).trans ?_
      rw [abs_mul, abs_mul, abs_of_pos (by positivity : 0 < 1 / r), abs_of_pos (by positivity : 0 < 0.5 / a)]
      have t1 := mul_le_mul_of_nonneg_left d1 (by positivity : 0 ≤ 1 / r)
      have t2 := mul_le_mul_of_nonneg_left d2 (by positivity : 0 ≤ 0.5 / a)
      rw [show C / 2 ^ 53 * (1 / r - 0.5 / a) = (C * (1 / r - 0.5 / a)) / 2 ^ 53 by ring, ← hsum]
      refine (add_le_add t1 t2).trans (le_of_eq (by ring))
    · rw [f1, f2, mul_add (1 / r - 0.5 / a), mul_div_cancel₀ _ p3.ne']
      ring
  have hk : C / 2 ^ 53 ≤ 1 / 16 := by
    refine (div_le_div_of_nonneg_right hC1 (by positivity)).trans (by norm_num)
  have rf := rel_mono (rel_fl rd (by linarith) (pow_low ((c 150 (by norm_num)).trans l3))) (show _ ≤ C / 2 ^ 53 + 1.1 / 2 ^ 53 by
    generalize C / 2 ^ 53 = z at *
    norm_num
    linarith)
  obtain ⟨v, hv, -, hb⟩ := finish (c := 42.1219) (by norm_num) ((c 150 (by norm_num)).trans l3) rf (by
    generalize C / 2 ^ 53 = z at *
    norm_num
    linarith)
  refine ⟨v, hv, hb.trans (mul_le_mul_of_nonneg_right ?_ (by positivity))⟩
  rw [add_div]
  generalize C / 2 ^ 53 = z at *
  norm_num
  linarith

/-- The hypotheses can be met: an orbit like that of Halley's comet, near aphelion. -/
theorem C204_example : Rep (31 / 32) ∧ (1 : ℝ) / 2 ^ 100 ≤ 18 ∧ (18 : ℝ) ≤ 2 ^ 100 ∧ (0 : ℝ) ≤ 31 / 32 ∧ (31 : ℝ) / 32 < 1 ∧
    (0 : ℝ) < 35 ∧ (35 : ℝ) ≤ 2 * 18 ∧ (2 * 18 + 35 : ℝ) ≤ 2 ^ 49 * (2 * 18 - 35) :=
  ⟨⟨31, -5, by norm_num, by norm_num, by norm_num⟩, by norm_num, by norm_num, by norm_num, by norm_num, by norm_num, by norm_num, by norm_num⟩

end Verif.Props.Speed64v
