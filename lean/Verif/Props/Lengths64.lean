import Mathlib.Tactic
import Verif.Model.Lengths64
import Verif.Props.Length64Acc
/-!
Property C206: the approximations of the length of an ellipse in double precision.
-/
namespace Verif.Props.Lengths64v

open Verif.Go.F64 Verif.Model.Length64 Verif.Model.Lengths64 Verif.Props.Parabolic64v Verif.Props.Length64v

theorem low9 {x : ℝ} (h : 1 / 2 ^ 900 ≤ x) : x = 0 ∨ 1 / 2 ^ 1000 ≤ |x| := Or.inr (by
  rw [abs_of_pos (lt_of_lt_of_le (by positivity) h)]
  exact (one_div_le_one_div_of_le (by positivity) (pow_le_pow_right₀ (by norm_num) (by norm_num))).trans h)

/-- Rounding adds one unit. -/
theorem rnd {x X κ : ℝ} (h : Rel x X κ) (hκ : κ ≤ 1e-10) (hX : 1 / 2 ^ 900 ≤ X) : Rel (fl x) X (κ + 1.01 / 2 ^ 53) := by
  have hκ0 : 0 ≤ κ := by obtain ⟨δ, hδ, -⟩ := h; exact (abs_nonneg _).trans hδ
  refine rel_mono (rel_fl h (by norm_num at *; linarith) (low9 hX)) ?_
  norm_num at *
  linarith

theorem prod_rel {x X y z κ : ℝ} (h : Rel y X κ) (hκ : κ ≤ 1e-10) (hX : 1 / 2 ^ 900 ≤ x * X) (hp : Prod x y z) : Rel z (x * X) (κ + 1.01 / 2 ^ 53) := by
  have m := rel_mul (rel_self x) h
  have hκ0 : 0 ≤ κ := by obtain ⟨δ, hδ, -⟩ := h; exact (abs_nonneg _).trans hδ
  have m' := rel_mono m (show _ ≤ κ by linarith)
  rcases hp with rfl | rfl
  · exact rnd m' hκ hX
  · exact rel_mono m' (by norm_num)

theorem rel_add {x X y Y κ : ℝ} (hx : Rel x X κ) (hy : Rel y Y κ) (X0 : 0 < X) (Y0 : 0 < Y) : Rel (x + y) (X + Y) κ := by
  obtain ⟨a, ha, rfl⟩ := hx
  obtain ⟨b, hb, rfl⟩ := hy
  refine ⟨(X * a + Y * b) / (X + Y), ?_, by field_simp; ring⟩
  rw [abs_div, abs_of_pos (by positivity : 0 < X + Y), div_le_iff₀ (by positivity)]
  refine (abs_add_le _ _).trans ?_
  rw [abs_mul, abs_mul, abs_of_pos X0, abs_of_pos Y0]
  nlinarith [mul_le_mul_of_nonneg_left ha X0.le, mul_le_mul_of_nonneg_left hb Y0.le]

/-- A difference at least 1/k of its terms. -/
theorem rel_sub {x X y Y κ μ ν : ℝ} (hx : Rel x X κ) (hy : Rel y Y μ) (X0 : 0 ≤ X) (Y0 : 0 ≤ Y) (hd : 0 < X - Y) (h : κ * X + μ * Y ≤ ν * (X - Y)) : Rel (x - y) (X - Y) ν := by
  obtain ⟨a, ha, rfl⟩ := hx
  obtain ⟨b, hb, rfl⟩ := hy
  refine ⟨(X * a - Y * b) / (X - Y), ?_, by field_simp; ring⟩
  rw [abs_div, abs_of_pos hd, div_le_iff₀ hd]
  refine (abs_sub _ _).trans ?_
  rw [abs_mul, abs_mul, abs_of_nonneg X0, abs_of_nonneg Y0]
  nlinarith [mul_le_mul_of_nonneg_left ha X0, mul_le_mul_of_nonneg_left hb Y0]

theorem root_rel {e s : ℝ} (h0 : 0 ≤ e) (h1 : e ≤ 0.99) (h : Root e (some s)) : Rel s (Real.sqrt (1 - e * e)) (115 / 2 ^ 53) ∧ 0.14 ≤ Real.sqrt (1 - e * e) ∧ Real.sqrt (1 - e * e) ≤ 1 := by
  have he : e ≤ 1 := by norm_num at *; linarith
  have hn := (root_near h0 he h).2 h1
  have hw : 0.14 ≤ Real.sqrt (1 - e * e) := Real.le_sqrt_of_sq_le (by nlinarith)
  have hw1 : Real.sqrt (1 - e * e) ≤ 1 := Real.sqrt_le_one.mpr (by nlinarith)
  refine ⟨?_, hw, hw1⟩
  generalize Real.sqrt (1 - e * e) = w at *
  have w0 : 0 < w := by norm_num at *; linarith
  refine ⟨(s - w) / w, ?_, by field_simp; ring⟩
  rw [abs_div, abs_of_pos w0, div_le_iff₀ w0]
  norm_num at *
  linarith

theorem scale900 {a x k : ℝ} (ha : 1 / 2 ^ 400 ≤ a) (hk : 1 / 2 ^ 10 ≤ k) (hx : k * a ≤ x) : 1 / 2 ^ 900 ≤ x := by
  refine le_trans ?_ hx
  refine le_trans ?_ (mul_le_mul hk ha (by positivity) ((by positivity : (0 : ℝ) ≤ 1 / 2 ^ 10).trans hk))
  rw [one_div_mul_one_div, ← pow_add]
  exact one_div_le_one_div_of_le (by positivity) (pow_le_pow_right₀ (by norm_num) (by norm_num))

/-- C206.  `Length1` in binary64 is the exact formula to 1 part in 10¹³, whatever is fused. -/
theorem C206_length1 {a e L : ℝ} (ha : 1 / 2 ^ 400 ≤ a) (h0 : 0 ≤ e) (h1 : e ≤ 0.99) (h : Length1 a e L) :
    0 < Verif.Model.Elliptic.Length1 a e ∧ |L - Verif.Model.Elliptic.Length1 a e| ≤ 1e-13 * Verif.Model.Elliptic.Length1 a e := by
  have a0 : 0 < a := lt_of_lt_of_le (by positivity) ha
  obtain ⟨s, b1, b2, m, q1, q2, hs, hb1, hb2, hm, hq1, hq2, hL⟩ := h
  obtain ⟨rs, w0, w1⟩ := root_rel h0 h1 hs
  have hE : Verif.Model.Elliptic.Length1 a e = Real.pi * (3 * (a + a * Real.sqrt (1 - e * e)) - Real.sqrt ((a + 3 * (a * Real.sqrt (1 - e * e))) * (3 * a + a * Real.sqrt (1 - e * e)))) := rfl
  rw [hE]
  clear hE hs
  generalize Real.sqrt (1 - e * e) = w at *
  have wp : 0 < w := by norm_num at *; linarith
  have b0 : 0 < a * w := mul_pos a0 wp
  have bl : 0.14 * a ≤ a * w := by nlinarith
  have sc : ∀ x, 0.14 * a ≤ x → 1 / 2 ^ 900 ≤ x := fun x hx => scale900 ha (by norm_num) hx
  set B := a * w with hB
  have rb1 := prod_rel rs (by norm_num) (sc _ bl) hb1
  have rb2 := prod_rel rs (by norm_num) (sc _ bl) hb2
  have rb : Rel (fl (a * s)) B _ := prod_rel rs (by norm_num) (sc _ bl) (Or.inl rfl)
  have wk : ∀ x κ, 0 ≤ κ → Rel x x κ := fun x κ hk => rel_mono (rel_self x) hk
  have r1 := rnd (rel_add (wk a _ (by positivity)) rb1 a0 b0) (by norm_num) (sc _ (by norm_num at *; linarith))
  have r2 := prod_rel r1 (by norm_num) (sc _ (by norm_num at *; linarith)) hm
  have r3 := prod_rel rb (by norm_num) (sc _ (by norm_num at *; linarith)) hq1
  have r4 := rnd (rel_add (wk a _ (by positivity)) r3 a0 (by positivity)) (by norm_num) (sc _ (by norm_num at *; linarith))
  have r5 := rel_mono (prod_rel (rel_self a) (by norm_num) (sc _ (by norm_num at *; linarith)) hq2) (show _ ≤ 115 / 2 ^ 53 + 1.01 / 2 ^ 53 by norm_num)
  have r6 := rnd (rel_add r5 rb2 (by positivity) b0) (by norm_num) (sc _ (by norm_num at *; linarith))
  have hP : (a + B) ^ 2 ≤ (a + 3 * B) * (3 * a + B) := by nlinarith [mul_pos a0 b0]
  have hP2 : (a + 3 * B) * (3 * a + B) ≤ (2 * (a + B)) ^ 2 := by nlinarith [sq_nonneg (a - B)]
  have low2 : 1 / 2 ^ 900 ≤ (a + 3 * B) * (3 * a + B) := by
    refine le_trans ?_ (mul_le_mul (by linarith : a ≤ a + 3 * B) (by linarith : a ≤ 3 * a + B) a0.le (by positivity))
    refine le_trans ?_ (mul_le_mul ha ha (by positivity) a0.le)
    rw [one_div_mul_one_div, ← pow_add]
    exact one_div_le_one_div_of_le (by positivity) (pow_le_pow_right₀ (by norm_num) (by norm_num))
  have P0 : 0 < (a + 3 * B) * (3 * a + B) := by positivity
  have r7 := rel_mono (rnd (rel_mono (rel_mul r4 r6) (show _ ≤ 240 / 2 ^ 53 by norm_num)) (by norm_num) low2) (show _ ≤ 242 / 2 ^ 53 by norm_num)
  have sl : a + B ≤ Real.sqrt ((a + 3 * B) * (3 * a + B)) := Real.le_sqrt_of_sq_le hP
  have su : Real.sqrt ((a + 3 * B) * (3 * a + B)) ≤ 2 * (a + B) := Real.sqrt_le_left (by positivity) |>.mpr hP2
  have r8 := rel_mono (rnd (rel_sqrt r7 P0.le (by norm_num)) (by norm_num) (sc _ (by norm_num at *; linarith))) (show _ ≤ 244 / 2 ^ 53 by norm_num)
  clear low2 P0 hP hP2
  generalize Real.sqrt ((a + 3 * B) * (3 * a + B)) = R at *
  have r2' := rel_mono r2 (show _ ≤ 120 / 2 ^ 53 by norm_num)
  have r9 := rel_sub (ν := 850 / 2 ^ 53) r2' r8 (by positivity) (by linarith) (by linarith) (by
    clear ha sc
    norm_num at *
    linarith)
  have r10 := rnd r9 (by norm_num) (sc _ (by norm_num at *; linarith))
  have pi3 := Real.pi_gt_three
  have one900 : (1 : ℝ) / 2 ^ 900 ≤ 3 := by
    refine le_trans (?_ : (1 : ℝ) / 2 ^ 900 ≤ 1) (by norm_num)
    rw [div_le_one (by positivity)]
    exact one_le_pow₀ (by norm_num)
  have rpi := rel_mono (rnd (rel_self Real.pi) (by norm_num) (by linarith)) (show _ ≤ 1.01 / 2 ^ 53 by norm_num)
  have d0 : 0 < 3 * (a + B) - R := by linarith
  have r11 := rnd (rel_mono (rel_mul rpi r10) (show _ ≤ 855 / 2 ^ 53 by norm_num)) (by norm_num) (sc _ (by
    have : 1 * (a + B) ≤ Real.pi * (3 * (a + B) - R) := mul_le_mul (by linarith) (by linarith) (by positivity) (by positivity)
    norm_num at *
    linarith))
  rw [← hL] at r11
  refine ⟨by positivity, ?_⟩
  obtain ⟨δ, hδ, f⟩ := r11
  rw [f, show ∀ E : ℝ, E * (1 + δ) - E = δ * E from fun E => by ring, abs_mul, abs_of_pos (by positivity : 0 < Real.pi * (3 * (a + B) - R))]
  exact mul_le_mul_of_nonneg_right (hδ.trans (by norm_num)) (by positivity)

/-- C206.  `Length2` likewise. -/
theorem C206_length2 {a e L : ℝ} (ha : 1 / 2 ^ 400 ≤ a) (h0 : 0 ≤ e) (h1 : e ≤ 0.99) (h : Length2 a e L) :
    0 < Verif.Model.Elliptic.Length2 a e ∧ |L - Verif.Model.Elliptic.Length2 a e| ≤ 1e-13 * Verif.Model.Elliptic.Length2 a e := by
  have a0 : 0 < a := lt_of_lt_of_le (by positivity) ha
  obtain ⟨A, G, H, x, y, z, ⟨r, b, s, p, hr, hb, rfl, rfl, rfl, rfl, rfl⟩, hx, hy, hz, hL⟩ := h
  obtain ⟨rs, w0, w1⟩ := root_rel h0 h1 hr
  have hE : Verif.Model.Elliptic.Length2 a e = Real.pi * (21 * ((a + a * Real.sqrt (1 - e * e)) * 0.5) - 2 * Real.sqrt (a * (a * Real.sqrt (1 - e * e))) -
    3 * (2 * (a * (a * Real.sqrt (1 - e * e))) / (a + a * Real.sqrt (1 - e * e)))) * 0.125 := rfl
  rw [hE]
  clear hE hr
  generalize Real.sqrt (1 - e * e) = w at *
  have wp : 0 < w := by norm_num at *; linarith
  have b0 : 0 < a * w := mul_pos a0 wp
  have bl : 0.14 * a ≤ a * w := by nlinarith
  have bu : a * w ≤ a := by nlinarith
  have sc : ∀ x, 0.01 * a ≤ x → 1 / 2 ^ 900 ≤ x := fun x hx => scale900 ha (by norm_num) hx
  set B := a * w with hB
  have blx : 0.01 * a ≤ B := by norm_num at *; linarith
  have rb1 := prod_rel rs (by norm_num) (sc _ blx) hb
  have rb : Rel (fl (a * r)) B _ := prod_rel rs (by norm_num) (sc _ blx) (Or.inl rfl)
  have wk : ∀ x κ, 0 ≤ κ → Rel x x κ := fun x κ hk => rel_mono (rel_self x) hk
  have r1 := rel_mono (rnd (rel_add (wk a _ (by positivity)) rb1 a0 b0) (by norm_num) (sc _ (by norm_num at *; linarith))) (show _ ≤ 118 / 2 ^ 53 by norm_num)
  have aa : (1 : ℝ) / 2 ^ 800 ≤ a * a := by
    refine le_trans (le_of_eq ?_) (mul_le_mul ha ha (by positivity) a0.le)
    rw [one_div_mul_one_div, ← pow_add]
  have lowp : 1 / 2 ^ 900 ≤ a * B := by
    refine le_trans ?_ (mul_le_mul_of_nonneg_left bl a0.le)
    refine le_trans ?_ (mul_le_mul_of_nonneg_left aa (by norm_num : (0 : ℝ) ≤ 0.14) |>.trans (le_of_eq (by ring)))
    have : (1 : ℝ) / 2 ^ 900 ≤ 1 / 2 ^ 800 * (1 / 2 ^ 100) := by
      rw [one_div_mul_one_div, ← pow_add]
    refine this.trans ?_
    rw [mul_comm]
    exact mul_le_mul_of_nonneg_right (by norm_num) (by positivity)
  have r2 := rel_mono (prod_rel rb (by norm_num) lowp (Or.inl rfl : Prod a (fl (a * r)) _)) (show _ ≤ 118 / 2 ^ 53 by norm_num)
  have p0 : 0 < a * B := mul_pos a0 b0
  have rA := rel_mono (rnd (rel_mono (rel_mul r1 (rel_self 0.5)) (show _ ≤ 118 / 2 ^ 53 by norm_num)) (by norm_num) (sc _ (by norm_num at *; linarith))) (show _ ≤ 120 / 2 ^ 53 by norm_num)
  have Gl : B ≤ Real.sqrt (a * B) := Real.le_sqrt_of_sq_le (by nlinarith)
  have Gu : Real.sqrt (a * B) ≤ (a + B) * 0.5 := Real.sqrt_le_left (by positivity) |>.mpr (by nlinarith [sq_nonneg (a - B)])
  have rG := rel_mono (rnd (rel_sqrt r2 p0.le (by norm_num)) (by norm_num) (sc _ (by linarith))) (show _ ≤ 120 / 2 ^ 53 by norm_num)
  have r3 := rel_mono (prod_rel r2 (by norm_num) (by linarith) (Or.inl rfl : Prod 2 (fl (a * fl (a * r))) _)) (show _ ≤ 120 / 2 ^ 53 by norm_num)
  have s0 : 0 < a + B := by positivity
  have Hl : B ≤ 2 * (a * B) / (a + B) := by rw [le_div_iff₀ s0]; nlinarith
  have Hu : 2 * (a * B) / (a + B) ≤ (a + B) * 0.5 := by rw [div_le_iff₀ s0]; nlinarith [sq_nonneg (a - B)]
  have rH := rel_mono (rnd (rel_mono (rel_div r3 r1 s0.ne' (by norm_num)) (show _ ≤ 240 / 2 ^ 53 by norm_num)) (by norm_num) (sc _ (by linarith))) (show _ ≤ 242 / 2 ^ 53 by norm_num)
  clear lowp r2 r3 p0 aa
  generalize Real.sqrt (a * B) = g at *
  generalize 2 * (a * B) / (a + B) = k at *
  set m := (a + B) * 0.5 with hm
  have m0 : 0 < m := by positivity
  have ml : 0.5 * a ≤ m := by rw [hm]; nlinarith
  have q1 := rel_mono (prod_rel rA (by norm_num) (sc _ (by norm_num at *; linarith)) hx) (show _ ≤ 122 / 2 ^ 53 by norm_num)
  have q2 := rel_mono (prod_rel rG (by norm_num) (sc _ (by norm_num at *; linarith)) hy) (show _ ≤ 122 / 2 ^ 53 by norm_num)
  have q3 := rel_mono (prod_rel rH (by norm_num) (sc _ (by norm_num at *; linarith)) hz) (show _ ≤ 244 / 2 ^ 53 by norm_num)
  have g0 : 0 < g := by linarith
  have k0 : 0 < k := by linarith
  have d1 := rel_mono (rnd (rel_sub (ν := 150 / 2 ^ 53) q1 q2 (by positivity) (by positivity) (by linarith) (by clear ha sc; norm_num at *; linarith)) (by norm_num) (sc _ (by norm_num at *; linarith))) (show _ ≤ 152 / 2 ^ 53 by norm_num)
  have d2 := rnd (rel_sub (ν := 300 / 2 ^ 53) d1 q3 (by linarith) (by positivity) (by linarith) (by clear ha sc; norm_num at *; linarith)) (by norm_num) (sc _ (by norm_num at *; linarith))
  have pi3 := Real.pi_gt_three
  have one900 : (1 : ℝ) / 2 ^ 900 ≤ 3 := by
    refine le_trans (?_ : (1 : ℝ) / 2 ^ 900 ≤ 1) (by norm_num)
    rw [div_le_one (by positivity)]
    exact one_le_pow₀ (by norm_num)
  have rpi := rel_mono (rnd (rel_self Real.pi) (by norm_num) (by linarith)) (show _ ≤ 1.01 / 2 ^ 53 by norm_num)
  have D0 : m ≤ 21 * m - 2 * g - 3 * k := by linarith
  have D1 : m ≤ Real.pi * (21 * m - 2 * g - 3 * k) := D0.trans (le_mul_of_one_le_left (by linarith) (by linarith))
  have e1 := rel_mono (rnd (rel_mono (rel_mul rpi d2) (show _ ≤ 304 / 2 ^ 53 by norm_num)) (by norm_num) (sc _ (by norm_num at *; linarith))) (show _ ≤ 306 / 2 ^ 53 by norm_num)
  have e2 := rnd (rel_mono (rel_mul e1 (rel_self 0.125)) (show _ ≤ 306 / 2 ^ 53 by norm_num)) (by norm_num) (sc _ (by
    have : 0.125 * m ≤ Real.pi * (21 * m - 2 * g - 3 * k) * 0.125 := by linarith
    norm_num at *
    linarith))
  rw [← hL] at e2
  have E0 : 0 < Real.pi * (21 * m - 2 * g - 3 * k) * 0.125 := by
    have : 0 < Real.pi * (21 * m - 2 * g - 3 * k) := by linarith
    positivity
  refine ⟨E0, ?_⟩
  obtain ⟨δ, hδ, f⟩ := e2
  rw [f, show ∀ E : ℝ, E * (1 + δ) - E = δ * E from fun E => by ring, abs_mul, abs_of_pos E0]
  exact mul_le_mul_of_nonneg_right (hδ.trans (by norm_num)) E0.le

/-- The hypotheses can be met: both functions have results for a = 1 and e = 1/2. -/
theorem C206_example : (1 : ℝ) / 2 ^ 400 ≤ 1 ∧ (∃ L, Length1 1 (1 / 2) L) ∧ ∃ L, Length2 1 (1 / 2) L := by
  obtain ⟨x, hx, -⟩ := root_range (by norm_num) (by norm_num) (⟨_, Or.inl rfl, rfl⟩ : Root (1 / 2) _)
  have hr : Root (1 / 2) (some x) := hx ▸ ⟨_, Or.inl rfl, rfl⟩
  refine ⟨?_, ⟨_, x, _, _, _, _, _, hr, Or.inl rfl, Or.inr rfl, Or.inl rfl, Or.inl rfl, Or.inl rfl, rfl⟩,
    ⟨_, _, _, _, _, _, _, ⟨x, _, _, _, hr, Or.inl rfl, rfl, rfl, rfl, rfl, rfl⟩, Or.inl rfl, Or.inr rfl, Or.inl rfl, rfl⟩⟩
  rw [div_le_one (by positivity)]
  exact one_le_pow₀ (by norm_num)

end Verif.Props.Lengths64v
