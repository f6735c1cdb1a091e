import Mathlib.Tactic
import Verif.Model.Parabolic64
import Verif.Props.Illum64
import Verif.Props.Orbits
import Verif.Props.Coord64
/-!
Property C202: motion in a parabola in double precision.
-/
namespace Verif.Props.Parabolic64v

open Verif.Go.F64 Verif.Model Verif.Model.Kepler64 Verif.Model.Parabolic64 Verif.Props.Fit64v Verif.Props.Lagrange64v

/-- A relative error. -/
def Rel (x X κ : ℝ) : Prop := ∃ δ, |δ| ≤ κ ∧ x = X * (1 + δ)

theorem rel_fl {x X κ : ℝ} (h : Rel x X κ) (hκ : κ ≤ 1 / 4) (hX : X = 0 ∨ 1 / 2 ^ 1000 ≤ |X|) : Rel (fl x) X (κ + 1 / 2 ^ 53 + κ / 2 ^ 53) := by
  obtain ⟨δ, hδ, rfl⟩ := h
  have hb := abs_le.mp hδ
  have hκ0 : 0 ≤ κ := (abs_nonneg _).trans hδ
  rcases hX with rfl | hX
  · exact ⟨0, by rw [abs_zero]; positivity, by rw [zero_mul, fl_zero]; ring⟩
  have h1 : 1 / 2 ^ 1022 ≤ |X * (1 + δ)| := by
    rw [abs_mul, abs_of_pos (by linarith : 0 < 1 + δ)]
    calc (1 : ℝ) / 2 ^ 1022 ≤ 1 / 2 ^ 1001 := one_div_le_one_div_of_le (by positivity) (pow_le_pow_right₀ (by norm_num) (by norm_num))
      _ = 1 / 2 ^ 1000 * (1 / 2) := by rw [one_div_mul_one_div, ← pow_succ]
      _ ≤ _ := mul_le_mul hX (by linarith) (by norm_num) (abs_nonneg _)
  obtain ⟨e, he, hf⟩ := fl_delta h1
  refine ⟨δ + e + δ * e, ?_, by rw [hf]; ring⟩
  have h2 : |δ * e| ≤ κ * (1 / 2 ^ 53) := by rw [abs_mul]; exact mul_le_mul hδ he (abs_nonneg _) ((abs_nonneg _).trans hδ)
  refine (abs_add_le _ _).trans ?_
  have := abs_add_le δ e
  rw [show κ / 2 ^ 53 = κ * (1 / 2 ^ 53) by ring]
  linarith

theorem rel_self (X : ℝ) : Rel X X 0 := ⟨0, by simp, by ring⟩

theorem rel_mono {x X κ κ' : ℝ} (h : Rel x X κ) (hk : κ ≤ κ') : Rel x X κ' := by
  obtain ⟨δ, a, b⟩ := h
  exact ⟨δ, a.trans hk, b⟩

theorem rel_mul {x X y Y κ μ : ℝ} (h : Rel x X κ) (g : Rel y Y μ) : Rel (x * y) (X * Y) (κ + μ + κ * μ) := by
  obtain ⟨a, ha, rfl⟩ := h
  obtain ⟨b, hb, rfl⟩ := g
  refine ⟨a + b + a * b, ?_, by ring⟩
  have h2 : |a * b| ≤ κ * μ := by rw [abs_mul]; exact mul_le_mul ha hb (abs_nonneg _) ((abs_nonneg _).trans ha)
  refine (abs_add_le _ _).trans ?_
  have := abs_add_le a b
  linarith

theorem rel_div {x X y Y κ μ : ℝ} (h : Rel x X κ) (g : Rel y Y μ) (hY : Y ≠ 0) (hμ : μ ≤ 1 / 4) : Rel (x / y) (X / Y) ((κ + μ) / (1 - μ)) := by
  obtain ⟨a, ha, rfl⟩ := h
  obtain ⟨b, hb, rfl⟩ := g
  have hb' := abs_le.mp hb
  have h1 : 0 < 1 + b := by linarith
  refine ⟨(a - b) / (1 + b), ?_, by field_simp; ring⟩
  rw [abs_div, abs_of_pos h1]
  have h2 : |a - b| ≤ κ + μ := (abs_sub _ _).trans (add_le_add ha hb)
  exact div_le_div₀ ((abs_nonneg _).trans h2) h2 (by linarith) (by linarith)

theorem rel_sqrt {x X κ : ℝ} (h : Rel x X κ) (hX : 0 ≤ X) (hκ : κ ≤ 1 / 4) : Rel (Real.sqrt x) (Real.sqrt X) κ := by
  obtain ⟨a, ha, rfl⟩ := h
  have ha' := abs_le.mp ha
  refine ⟨Real.sqrt (1 + a) - 1, ?_, by rw [Real.sqrt_mul hX]; ring⟩
  refine le_trans ?_ ha
  have h1 : 0 ≤ 1 + a := by linarith
  have h2 := Real.sq_sqrt h1
  have h3 := Real.sqrt_nonneg (1 + a)
  have : a = (Real.sqrt (1 + a) - 1) * (Real.sqrt (1 + a) + 1) := by nlinarith
  rw [show |a| = |Real.sqrt (1 + a) - 1| * (Real.sqrt (1 + a) + 1) by
    conv_lhs => rw [this]
    rw [abs_mul, abs_of_pos (by linarith : 0 < Real.sqrt (1 + a) + 1)]]
  nlinarith [abs_nonneg (Real.sqrt (1 + a) - 1)]

/-- The cube root. -/
theorem rel_cbrt {f : Fns} (hf : f.Ok) {x Y κ : ℝ} (h : Rel x (Y ^ 3) κ) (hY : 0 < Y) (hκ : κ ≤ 1 / 4) : Rel (f.cbrt x) Y (κ + 7e-16) := by
  obtain ⟨a, ha, rfl⟩ := h
  have ha' := abs_le.mp ha
  have h1 : 0 < 1 + a := by linarith
  set z := (1 + a) ^ ((1 : ℝ) / 3) with hz
  have hz0 : 0 < z := Real.rpow_pos_of_pos h1 _
  have hz3 : z ^ 3 = 1 + a := by
    rw [hz, ← Real.rpow_natCast, ← Real.rpow_mul h1.le]; norm_num
  have hz1 : |z - 1| ≤ |a| := by
    have e : a = (z - 1) * (z ^ 2 + z + 1) := by linear_combination -hz3
    rw [show |a| = |z - 1| * (z ^ 2 + z + 1) by
      conv_lhs => rw [e]
      rw [abs_mul, abs_of_pos (by positivity : 0 < z ^ 2 + z + 1)]]
    have : 0 ≤ z ^ 2 + z := by positivity
    nlinarith [abs_nonneg (z - 1)]
  have hc := hf.cbrt (Y * z)
  rw [mul_pow, hz3] at hc
  have hzz : z ≤ 5 / 4 := by have := (abs_le.mp hz1).2; linarith [(abs_le.mp (le_refl |a|)).2, ha]
  refine ⟨f.cbrt (Y ^ 3 * (1 + a)) / Y - 1, ?_, by field_simp; ring⟩
  rw [abs_mul, abs_of_pos hY, abs_of_pos hz0] at hc
  have e : f.cbrt (Y ^ 3 * (1 + a)) / Y - 1 = (f.cbrt (Y ^ 3 * (1 + a)) - Y * z) / Y + (z - 1) := by field_simp; ring
  rw [e]
  refine (abs_add_le _ _).trans ?_
  rw [abs_div, abs_of_pos hY]
  have : |f.cbrt (Y ^ 3 * (1 + a)) - Y * z| / Y ≤ 7e-16 := by
    rw [div_le_iff₀ hY]
    refine hc.trans ?_
    have := mul_le_mul_of_nonneg_left hzz hY.le
    norm_num
    linarith
  linarith

/-- The sum G + √(G² + 1) for a slightly wrong G. -/
theorem asum_rel {g g0 κ : ℝ} (h : Rel g g0 κ) (hκ : κ ≤ 1 / 10) : Rel (g + Real.sqrt (g * g + 1)) (g0 + Real.sqrt (g0 * g0 + 1)) (3 * κ) := by
  obtain ⟨a, ha, rfl⟩ := h
  have hκ0 : 0 ≤ κ := (abs_nonneg _).trans ha
  set g := g0 * (1 + a) with hg
  set H := Real.sqrt (g * g + 1) with hH
  set H0 := Real.sqrt (g0 * g0 + 1) with hH0
  have s1 : H ^ 2 = g * g + 1 := Real.sq_sqrt (by nlinarith [mul_self_nonneg g])
  have s0 : H0 ^ 2 = g0 * g0 + 1 := Real.sq_sqrt (by nlinarith [mul_self_nonneg g0])
  have p1 : 0 < H := Real.sqrt_pos.mpr (by nlinarith [mul_self_nonneg g])
  have p0 : 0 < H0 := Real.sqrt_pos.mpr (by nlinarith [mul_self_nonneg g0])
  have q1 : |g| < H := abs_lt_of_sq_lt_sq (by nlinarith) p1.le
  have q0 : |g0| < H0 := abs_lt_of_sq_lt_sq (by nlinarith) p0.le
  have a1 : 0 < g + H := by have := (abs_lt.mp q1).1; linarith
  have a0 : 0 < g0 + H0 := by have := (abs_lt.mp q0).1; linarith
  have e : (g + H) - (g0 + H0) = (g - g0) * ((g + H) + (g0 + H0)) / (H + H0) := by
    field_simp
    linear_combination s1 - s0
  have d : |g - g0| ≤ κ * (H + H0) := by
    rw [show g - g0 = a * g0 by rw [hg]; ring, abs_mul]
    refine mul_le_mul ha (by linarith) (abs_nonneg _) hκ0
  have d2 : |(g + H) - (g0 + H0)| ≤ κ * ((g + H) + (g0 + H0)) := by
    rw [e, abs_div, abs_mul, abs_of_pos (by linarith : 0 < (g + H) + (g0 + H0)), abs_of_pos (by linarith : 0 < H + H0), div_le_iff₀ (by linarith)]
    nlinarith
  refine ⟨((g + H) - (g0 + H0)) / (g0 + H0), ?_, by field_simp; ring⟩
  rw [abs_div, abs_of_pos a0, div_le_iff₀ a0]
  have d3 := (abs_le.mp d2).2
  have m1 := mul_le_mul_of_nonneg_right hκ a1.le
  have m0 := mul_le_mul_of_nonneg_right hκ a0.le
  have : g + H ≤ 2 * (g0 + H0) := by rw [mul_add] at d3; linarith
  have m2 := mul_le_mul_of_nonneg_left this hκ0
  refine d2.trans ?_
  rw [mul_add]
  linarith

/-- The rounding of G² + 1. -/
theorem h_rel {g h : ℝ} (hh : MulAdd 1 g g h) : Rel h (g * g + 1) (3 / 2 ^ 53) := by
  have big : ∀ x : ℝ, 1 ≤ x → 1 / 2 ^ 1022 ≤ |x| := fun x hx => by
    rw [abs_of_nonneg (by linarith)]
    refine le_trans ?_ hx
    rw [div_le_one (by positivity)]
    exact one_le_pow₀ (by norm_num)
  have hgg := mul_self_nonneg g
  have hu : (0 : ℝ) < 1 / 2 ^ 53 := by positivity
  have hu' : (1 : ℝ) / 2 ^ 53 ≤ 1 / 100 := by norm_num
  rcases hh with rfl | rfl
  · obtain ⟨a, ha, hfa⟩ : ∃ a, |a| ≤ 1 / 2 ^ 53 * 1.5 ∧ 1 + fl (g * g) = (g * g + 1) * (1 + a) := by
      refine ⟨(fl (g * g) - g * g) / (g * g + 1), ?_, by field_simp; ring⟩
      rw [abs_div, abs_of_pos (by linarith : 0 < g * g + 1), div_le_iff₀ (by linarith)]
      refine (fl_tiny _).trans ?_
      rw [abs_of_nonneg hgg]
      have : (1 : ℝ) / 2 ^ 500 ≤ 1 / 2 ^ 53 := one_div_le_one_div_of_le (by positivity) (pow_le_pow_right₀ (by norm_num) (by norm_num))
      generalize (1 : ℝ) / 2 ^ 500 = t at *
      rw [div_eq_mul_one_div (g * g)]
      generalize (1 : ℝ) / 2 ^ 53 = u at *
      nlinarith
    have h0 : 0 ≤ fl (g * g) := fl_zero ▸ fl_mono hgg
    obtain ⟨b, hb, hfb⟩ := fl_delta (big (1 + fl (g * g)) (by linarith))
    rw [hfb, hfa]
    refine ⟨a + b + a * b, ?_, by ring⟩
    rw [show (3 : ℝ) / 2 ^ 53 = 3 * (1 / 2 ^ 53) by ring]
    generalize (1 : ℝ) / 2 ^ 53 = u at *
    have h2 : |a * b| ≤ u * 1.5 * u := by rw [abs_mul]; exact mul_le_mul ha hb (abs_nonneg _) (by positivity)
    have h3 := abs_add_le (a + b) (a * b)
    have h4 := abs_add_le a b
    nlinarith
  · obtain ⟨b, hb, hfb⟩ := fl_delta (big (1 + g * g) (by linarith))
    exact ⟨b, hb.trans (by norm_num), by rw [hfb]; ring⟩

/-- The rounded sum, with the loss before perihelion. -/
theorem asum_fl {g h K : ℝ} (hh : MulAdd 1 g g h) (hK : 1 ≤ K) (hK2 : K ≤ 10 ^ 13) (hL : Real.sqrt (g * g + 1) ≤ K * (g + Real.sqrt (g * g + 1))) :
    Rel (fl (g + fl (Real.sqrt h))) (g + Real.sqrt (g * g + 1)) (6 / 2 ^ 53 * K) := by
  have hgg := mul_self_nonneg g
  have hu : (0 : ℝ) < 1 / 2 ^ 53 := by positivity
  have hH1 : 1 ≤ Real.sqrt (g * g + 1) := Real.one_le_sqrt.mpr (by linarith)
  have hlow : ∀ x : ℝ, 1 / 10 ^ 13 ≤ x → 1 / 2 ^ 1000 ≤ |x| := fun x hx => by
    refine le_trans ?_ (hx.trans (le_abs_self _))
    calc (1 : ℝ) / 2 ^ 1000 ≤ 1 / 2 ^ 50 := one_div_le_one_div_of_le (by positivity) (pow_le_pow_right₀ (by norm_num) (by norm_num))
      _ ≤ _ := by norm_num
  have r1 := rel_fl (rel_sqrt (h_rel hh) (by linarith) (by norm_num)) (by norm_num) (Or.inr (hlow _ (by norm_num; linarith)))
  obtain ⟨d, hd, hfd⟩ := r1
  have hd' : |d| ≤ 4.1 / 2 ^ 53 := hd.trans (by norm_num)
  set H := Real.sqrt (g * g + 1)
  have hA : 0 < g + H := by
    by_contra hn
    nlinarith
  have hA2 : 1 / 10 ^ 13 ≤ g + H := by
    rw [div_le_iff₀ (by norm_num)]
    nlinarith
  have r2 : Rel (g + fl (Real.sqrt h)) (g + H) (4.1 / 2 ^ 53 * K) := by
    refine ⟨d * H / (g + H), ?_, by rw [hfd]; field_simp; ring⟩
    rw [abs_div, abs_mul, abs_of_pos hA, abs_of_pos (by linarith : 0 < H), div_le_iff₀ hA]
    refine (mul_le_mul hd' hL (by linarith) (by norm_num)).trans (le_of_eq (by ring))
  refine rel_mono (rel_fl r2 ?_ (Or.inr (hlow _ hA2))) ?_
  · norm_num; linarith
  · norm_num; linarith

/-- The difference Y − 1/Y for a slightly wrong Y. -/
theorem s_near {Y Y0 κ : ℝ} (h : Rel Y Y0 κ) (hY0 : 0 < Y0) (hκ : κ ≤ 1 / 50) (hκ' : 5e-15 ≤ κ) (hr : 1 / 2 ^ 900 ≤ 1 / Y0) :
    |s Y - (Y0 - 1 / Y0)| ≤ 1.2 * κ * (Y0 + 1 / Y0) := by
  have r := rel_fl (rel_div (rel_self 1) h hY0.ne' (by linarith)) (by rw [zero_add, div_le_iff₀ (by linarith)]; linarith) (Or.inr (by
    rw [abs_of_pos (by positivity)]
    exact (one_div_le_one_div_of_le (by positivity) (pow_le_pow_right₀ (by norm_num) (by norm_num))).trans hr))
  have hq : (0 + κ) / (1 - κ) ≤ 1.03 * κ := by rw [div_le_iff₀ (by linarith)]; nlinarith
  have r' : Rel (fl (1 / Y)) (1 / Y0) (1.1 * κ) := by
    refine rel_mono r ?_
    generalize (0 + κ) / (1 - κ) = x at *
    norm_num at hq hκ' ⊢
    linarith
  obtain ⟨a, ha, hYa⟩ := h
  obtain ⟨b, hb, hYb⟩ := r'
  have hz : 0 < 1 / Y0 := by positivity
  have hN : 2 ≤ Y0 + 1 / Y0 := by
    have : Y0 * (1 / Y0) = 1 := by field_simp
    nlinarith [sq_nonneg (Y0 - 1 / Y0)]
  unfold s
  rw [hYb]
  have hx : |Y - 1 / Y0 * (1 + b) - (Y0 - 1 / Y0)| ≤ 1.1 * κ * (Y0 + 1 / Y0) := by
    rw [hYa, show Y0 * (1 + a) - 1 / Y0 * (1 + b) - (Y0 - 1 / Y0) = Y0 * a - 1 / Y0 * b by ring]
    refine (abs_sub _ _).trans ?_
    rw [abs_mul, abs_mul, abs_of_pos hY0, abs_of_pos hz]
    have := mul_le_mul_of_nonneg_left ha hY0.le
    have := mul_le_mul_of_nonneg_left hb hz.le
    norm_num at *
    nlinarith
  have ht := fl_tiny (Y - 1 / Y0 * (1 + b))
  set x := Y - 1 / Y0 * (1 + b)
  have hax : |x| ≤ 2 * (Y0 + 1 / Y0) := by
    have h1 : |x| ≤ |x - (Y0 - 1 / Y0)| + |Y0 - 1 / Y0| := by
      have := abs_add_le (x - (Y0 - 1 / Y0)) (Y0 - 1 / Y0)
      rwa [sub_add_cancel] at this
    have h2 : |Y0 - 1 / Y0| ≤ Y0 + 1 / Y0 := by rw [abs_le]; constructor <;> linarith
    nlinarith
  have ht5 : (1 : ℝ) / 2 ^ 500 ≤ 1 / 2 ^ 60 := one_div_le_one_div_of_le (by positivity) (pow_le_pow_right₀ (by norm_num) (by norm_num))
  have h3 := abs_sub_le (fl x) x (Y0 - 1 / Y0)
  generalize (1 : ℝ) / 2 ^ 500 = t at *
  generalize 1 / Y0 = z at *
  generalize |fl x - (Y0 - z)| = y1 at *
  generalize |fl x - x| = y2 at *
  generalize |x - (Y0 - z)| = y3 at *
  generalize |x| = y4 at *
  have h5 := mul_le_mul_of_nonneg_right hκ' (by linarith : 0 ≤ Y0 + z)
  norm_num at *
  nlinarith

/-- From s to the distance. -/
theorem e_rel {t s0 c e : ℝ} (hN : |t - s0| ≤ 1.2 * c * Real.sqrt (s0 ^ 2 + 4)) (hc : 5e-15 ≤ c) (hc2 : c ≤ 1 / 50) (he : MulAdd 1 t t e) : Rel e (1 + s0 * s0) (5.3 * c) := by
  set N := Real.sqrt (s0 ^ 2 + 4) with hNd
  have hN0 : 0 ≤ N := Real.sqrt_nonneg _
  have hN2 : N ^ 2 = s0 ^ 2 + 4 := Real.sq_sqrt (by positivity)
  have hs0 : |s0| ≤ N := abs_le_of_sq_le_sq (by nlinarith) hN0
  set M := Real.sqrt (1 + s0 ^ 2) with hM
  have hM2 : M ^ 2 = 1 + s0 ^ 2 := Real.sq_sqrt (by positivity)
  have hM0 : 0 ≤ M := Real.sqrt_nonneg _
  have hNM : N ≤ 2 * M := abs_le_of_sq_le_sq' (by nlinarith [sq_nonneg s0]) (by linarith) |>.2
  have hsM : |s0| ≤ M := abs_le_of_sq_le_sq (by nlinarith) hM0
  have hT : |t - s0| ≤ 2.4 * c * M := hN.trans (by nlinarith)
  have hd : |t * t - s0 * s0| ≤ 5 * c * (1 + s0 * s0) := by
    rw [show t * t - s0 * s0 = (t - s0) * ((t - s0) + 2 * s0) by ring, abs_mul]
    have h1 : |(t - s0) + 2 * s0| ≤ 2.05 * M := by
      refine (abs_add_le _ _).trans ?_
      rw [abs_mul, abs_two]
      nlinarith
    refine (mul_le_mul hT h1 (abs_nonneg _) (by positivity)).trans ?_
    rw [show 2.4 * c * M * (2.05 * M) = 4.92 * c * M ^ 2 by ring, hM2]
    nlinarith [sq_nonneg s0]
  obtain ⟨δ, hδ, heq⟩ := h_rel he
  have r1 : Rel (t * t + 1) (1 + s0 * s0) (5 * c) := by
    have hp : 0 < 1 + s0 * s0 := by nlinarith [mul_self_nonneg s0]
    refine ⟨(t * t - s0 * s0) / (1 + s0 * s0), ?_, by field_simp; ring⟩
    rwa [abs_div, abs_of_pos hp, div_le_iff₀ hp]
  have r2 := rel_mul r1 (⟨δ, hδ, by ring⟩ : Rel (1 + δ) 1 (3 / 2 ^ 53))
  rw [mul_one, ← heq] at r2
  refine rel_mono r2 ?_
  norm_num at *
  linarith

/-- From s to the anomaly. -/
theorem atan_near {t s0 c : ℝ} (hN : |t - s0| ≤ 1.2 * c * Real.sqrt (s0 ^ 2 + 4)) (hc : 0 ≤ c) (hc2 : c ≤ 1 / 50) : |Real.arctan t - Real.arctan s0| ≤ 2.8 * c := by
  set N := Real.sqrt (s0 ^ 2 + 4) with hNd
  have hN0 : 0 ≤ N := Real.sqrt_nonneg _
  have hN2 : N ^ 2 = s0 ^ 2 + 4 := Real.sq_sqrt (by positivity)
  set M := Real.sqrt (1 + s0 ^ 2) with hM
  have hM2 : M ^ 2 = 1 + s0 ^ 2 := Real.sq_sqrt (by positivity)
  have hM1 : 1 ≤ M := Real.one_le_sqrt.mpr (by nlinarith [sq_nonneg s0])
  have hNM : N ≤ 2 * M := abs_le_of_sq_le_sq' (by nlinarith [sq_nonneg s0]) (by linarith) |>.2
  have hsM : |s0| ≤ M := abs_le_of_sq_le_sq (by nlinarith) (by linarith)
  have hT : |t - s0| ≤ 2.4 * c * M := hN.trans (by nlinarith)
  have hconv : Convex ℝ (Metric.closedBall s0 (2.4 * c * M)) := convex_closedBall _ _
  have key := hconv.norm_image_sub_le_of_norm_hasDerivWithin_le (f := Real.arctan) (f' := fun x => 1 / (1 + x ^ 2)) (C := 1.12 / M ^ 2) (x := s0) (y := t)
    (fun x _ => (Real.hasDerivAt_arctan x).hasDerivWithinAt) (fun x hx => by
      rw [Metric.mem_closedBall, Real.dist_eq] at hx
      rw [Real.norm_eq_abs, abs_of_pos (by positivity), div_le_div_iff₀ (by positivity) (by positivity)]
      have h1 : |2 * s0 * (x - s0)| ≤ 2 * M * (2.4 * c * M) := by
        rw [abs_mul, abs_mul, abs_two]
        exact mul_le_mul (by linarith) hx (abs_nonneg _) (by linarith)
      have h2 := (abs_le.mp h1).1
      have h3 : M ^ 2 * c ≤ M ^ 2 * (1 / 50) := mul_le_mul_of_nonneg_left hc2 (by positivity)
      nlinarith [sq_nonneg (x - s0)]) (by simp; positivity) (by rw [Metric.mem_closedBall, Real.dist_eq]; exact hT)
  rw [Real.norm_eq_abs, Real.norm_eq_abs] at key
  refine key.trans ?_
  calc 1.12 / M ^ 2 * |t - s0| ≤ 1.12 / M ^ 2 * (2.4 * c * M) := mul_le_mul_of_nonneg_left hT (by positivity)
    _ = 2.688 * c / M := by field_simp; ring
    _ ≤ 2.688 * c := div_le_self (by positivity) hM1
    _ ≤ _ := by linarith

/-- Dates and perihelion distances for which nothing overflows and nothing is lost to underflow. -/
structure InRange (timeP q jde : ℝ) : Prop where
  lo : 1 / 2 ^ 40 ≤ q
  hi : q ≤ 2 ^ 40
  near : jde = timeP ∨ 1 / 2 ^ 60 ≤ |jde - timeP|
  far : |jde - timeP| ≤ 2 ^ 40

/-- Half the right hand side of Barker's equation. -/
noncomputable def half (timeP q jde : ℝ) : ℝ := 3 * Orbits.K / (Real.sqrt 2 * q ^ (3 / 2 : ℝ)) * (jde - timeP) / 2

theorem half_eq {timeP q jde : ℝ} (hq : 0 < q) : half timeP q jde = 3 * Orbits.K / Real.sqrt 2 * (jde - timeP) / q / Real.sqrt q * 0.5 := by
  unfold half
  rw [show (3 / 2 : ℝ) = 1 + 1 / 2 by norm_num, Real.rpow_add hq, Real.rpow_one, ← Real.sqrt_eq_rpow]
  have := Real.sqrt_pos.mpr hq
  field_simp
  ring

theorem const_bounds : 0.036 ≤ 3 * Orbits.K / Real.sqrt 2 ∧ 3 * Orbits.K / Real.sqrt 2 ≤ 0.037 := by
  have h0 : 0 < Real.sqrt 2 := Real.sqrt_pos.mpr (by norm_num)
  have h1 : Real.sqrt 2 ≤ 1.4143 := Real.sqrt_le_iff.mpr ⟨by norm_num, by norm_num⟩
  have h2 : 1.4142 ≤ Real.sqrt 2 := Real.le_sqrt_of_sq_le (by norm_num)
  unfold Orbits.K
  rw [le_div_iff₀ h0, div_le_iff₀ h0]
  norm_num at *
  constructor <;> linarith

theorem low_of {x : ℝ} (h : 1 / 2 ^ 200 ≤ |x|) : 1 / 2 ^ 1000 ≤ |x| :=
  (one_div_le_one_div_of_le (by positivity) (pow_le_pow_right₀ (by norm_num) (by norm_num))).trans h

theorem g_rel {timeP q jde : ℝ} (h : InRange timeP q jde) : Rel (G timeP q jde) (half timeP q jde) (9 / 2 ^ 53) := by
  have hq : 0 < q := lt_of_lt_of_le (by positivity) h.lo
  have hsq : 0 < Real.sqrt q := Real.sqrt_pos.mpr hq
  have hs1 : 1 / 2 ^ 20 ≤ Real.sqrt q := Real.le_sqrt_of_sq_le (by refine le_trans (le_of_eq ?_) h.lo; norm_num)
  have hs2 : Real.sqrt q ≤ 2 ^ 20 := Real.sqrt_le_iff.mpr ⟨by positivity, h.hi.trans (by norm_num)⟩
  obtain ⟨c1, c2⟩ := const_bounds
  set C := 3 * Orbits.K / Real.sqrt 2 with hC
  rw [half_eq hq, ← hC]
  unfold G W
  rw [← hC]
  have rc : Rel (fl C) C (1 / 2 ^ 53) := rel_mono (rel_fl (rel_self C) (by norm_num) (Or.inr (low_of (by
    rw [abs_of_pos (by linarith)]
    refine le_trans ?_ c1
    calc (1 : ℝ) / 2 ^ 200 ≤ 1 / 2 ^ 20 := one_div_le_one_div_of_le (by positivity) (pow_le_pow_right₀ (by norm_num) (by norm_num))
      _ ≤ _ := by norm_num)))) (by norm_num)
  have split : ∀ x : ℝ, (jde = timeP → x = 0) → (1 / 2 ^ 60 ≤ |jde - timeP| → 1 / 2 ^ 200 ≤ |x|) → (x = 0 ∨ 1 / 2 ^ 1000 ≤ |x|) := fun x a b =>
    h.near.imp a fun hh => low_of (b hh)
  have hCp : 0 < C := by linarith
  have p1 : ∀ d : ℝ, 1 / 2 ^ 60 ≤ d → 1 / 2 ^ 65 ≤ C * d := fun d hd => by
    refine le_trans ?_ (mul_le_mul c1 hd (by positivity) hCp.le)
    norm_num
  have p2 : ∀ d : ℝ, 1 / 2 ^ 60 ≤ d → 1 / 2 ^ 105 ≤ C * d / q := fun d hd => by
    rw [le_div_iff₀ hq]
    refine le_trans ?_ (p1 d hd)
    refine (mul_le_mul_of_nonneg_left h.hi (by positivity)).trans ?_
    norm_num
  have p3 : ∀ d : ℝ, 1 / 2 ^ 60 ≤ d → 1 / 2 ^ 125 ≤ C * d / q / Real.sqrt q := fun d hd => by
    rw [le_div_iff₀ hsq]
    refine le_trans ?_ (p2 d hd)
    refine (mul_le_mul_of_nonneg_left hs2 (by positivity)).trans ?_
    norm_num
  have small : ∀ (k : ℕ) (x : ℝ), k ≤ 200 → 1 / 2 ^ k ≤ x → 1 / 2 ^ 200 ≤ x := fun k x hk hx =>
    (one_div_le_one_div_of_le (by positivity) (pow_le_pow_right₀ (by norm_num) hk)).trans hx
  have rd : Rel (fl (jde - timeP)) (jde - timeP) (1 / 2 ^ 53) := rel_mono (rel_fl (rel_self _) (by norm_num)
    (split _ (fun e => by rw [e, sub_self]) (fun hh => small 60 _ (by norm_num) hh))) (by norm_num)
  have r1 : Rel (fl (fl C * fl (jde - timeP))) (C * (jde - timeP)) (3.1 / 2 ^ 53) := rel_mono (rel_fl (rel_mul rc rd) (by norm_num)
    (split _ (fun e => by rw [e, sub_self, mul_zero]) (fun hh => small 65 _ (by norm_num) (by rw [abs_mul, abs_of_pos hCp]; exact p1 _ hh)))) (by norm_num)
  have r2 := rel_mono (rel_fl (rel_div r1 (rel_self q) hq.ne' (by norm_num)) (by norm_num)
    (split _ (fun e => by rw [e, sub_self, mul_zero, zero_div]) (fun hh => small 105 _ (by norm_num) (by
      rw [abs_div, abs_mul, abs_of_pos hCp, abs_of_pos hq]; exact p2 _ hh)))) (show _ ≤ 4.2 / 2 ^ 53 by norm_num)
  have rs : Rel (fl (Real.sqrt q)) (Real.sqrt q) (1 / 2 ^ 53) := rel_mono (rel_fl (rel_self _) (by norm_num) (Or.inr (low_of (by
    rw [abs_of_pos hsq]; exact small 20 _ (by norm_num) hs1)))) (by norm_num)
  have r3 := rel_mono (rel_fl (rel_div r2 rs hsq.ne' (by norm_num)) (by norm_num)
    (split _ (fun e => by rw [e, sub_self, mul_zero, zero_div, zero_div]) (fun hh => small 125 _ (by norm_num) (by
      rw [abs_div, abs_div, abs_mul, abs_of_pos hCp, abs_of_pos hq, abs_of_pos hsq]; exact p3 _ hh)))) (show _ ≤ 6.3 / 2 ^ 53 by norm_num)
  exact rel_mono (rel_fl (rel_mul r3 (rel_self 0.5)) (by norm_num)
    (split _ (fun e => by rw [e, sub_self, mul_zero, zero_div, zero_div, zero_mul]) (fun hh => small 126 _ (by norm_num) (by
      rw [abs_mul, abs_div, abs_div, abs_mul, abs_of_pos hCp, abs_of_pos hq, abs_of_pos hsq]
      have := p3 _ hh
      rw [abs_of_pos (by norm_num : (0 : ℝ) < 0.5)]
      refine le_trans ?_ (mul_le_mul_of_nonneg_right this (by norm_num))
      norm_num)))) (by norm_num)

theorem rel_trans {x y z κ μ : ℝ} (h : Rel x y κ) (g : Rel y z μ) : Rel x z (κ + μ + κ * μ) := by
  obtain ⟨a, ha, rfl⟩ := h
  have := rel_mul (⟨a, ha, by ring⟩ : Rel (1 + a) 1 κ) g
  rwa [one_mul, mul_comm (1 + a)] at this

theorem sum_pos' (g : ℝ) : 0 < g + Real.sqrt (g * g + 1) := by
  have s1 : Real.sqrt (g * g + 1) ^ 2 = g * g + 1 := Real.sq_sqrt (by nlinarith [mul_self_nonneg g])
  have p := Real.sqrt_nonneg (g * g + 1)
  by_contra hn
  nlinarith

/-- The error, given the loss L in the sum G + √(G² + 1). -/
theorem main_near {f : Fns} (hf : f.Ok) {timeP q jde s0 L : ℝ} {out : Option (ℝ × ℝ)} (h : InRange timeP q jde)
    (hs : s0 ^ 3 + 3 * s0 = 2 * half timeP q jde) (hL1 : 1 ≤ L) (hL2 : L ≤ 4e12)
    (hL : Real.sqrt (G timeP q jde * G timeP q jde + 1) ≤ L * (G timeP q jde + Real.sqrt (G timeP q jde * G timeP q jde + 1)))
    (hout : AnomalyDistance f timeP q jde out) :
    ∃ ν r, out = some (ν, r) ∧ |ν - 2 * Real.arctan s0| ≤ 4e-14 * L ∧ |r - q * (1 + s0 ^ 2)| ≤ 3e-14 * L * (q * (1 + s0 ^ 2)) := by
  obtain ⟨hh, Y, h1, hY, h2⟩ := hout
  have hq : 0 < q := lt_of_lt_of_le (by positivity) h.lo
  have hg := g_rel h
  set g := G timeP q jde
  set g0 := half timeP q jde with hg0
  have hA0 := sum_pos' g0
  have r1 := rel_trans (asum_fl h1 hL1 (by norm_num at *; linarith) hL) (asum_rel hg (by norm_num))
  have hY3 := Verif.Lemmas.cbrt_cube (g0 + Real.sqrt (g0 * g0 + 1))
  have hY0 := Verif.Lemmas.cbrt_pos hA0
  set Y0 := Orbits.cbrt (g0 + Real.sqrt (g0 * g0 + 1)) with hY0d
  rw [← hY3] at r1
  have r2 := rel_cbrt hf r1 hY0 (by norm_num at *; linarith)
  rw [← hY] at r2
  have r3 : Rel Y Y0 (5e-15 * L) := rel_mono r2 (by norm_num at *; linarith)
  have hc1 : 5e-15 ≤ 5e-15 * L := by norm_num; linarith
  have hc2 : 5e-15 * L ≤ 1 / 50 := by norm_num at *; linarith
  -- the size of Y0
  have hsq : Real.sqrt (g0 * g0 + 1) ^ 2 = g0 * g0 + 1 := Real.sq_sqrt (by nlinarith [mul_self_nonneg g0])
  have hZ : (1 / Y0) ^ 3 = Real.sqrt (g0 * g0 + 1) - g0 := by
    rw [div_pow, hY3, one_pow, div_eq_iff hA0.ne']; nlinarith
  have hYZ : Y0 * (1 / Y0) = 1 := by field_simp
  have hbar : s0 = Y0 - 1 / Y0 := by
    refine Verif.Lemmas.barker_unique ?_
    rw [hs]
    generalize 1 / Y0 = Z at *
    linear_combination -hY3 + hZ + 3 * (Y0 - Z) * hYZ
  have hbig : 1 / 2 ^ 900 ≤ 1 / Y0 := by
    have hg0b : |g0| ≤ 2 ^ 120 := by
      rw [hg0, half_eq hq, abs_mul, abs_div, abs_div, abs_mul, abs_of_pos hq, abs_of_nonneg (Real.sqrt_nonneg q)]
      obtain ⟨c1, c2⟩ := const_bounds
      rw [abs_of_pos (by linarith : 0 < 3 * Orbits.K / Real.sqrt 2), abs_of_pos (by norm_num : (0 : ℝ) < 0.5)]
      have hs1 : 1 / 2 ^ 20 ≤ Real.sqrt q := Real.le_sqrt_of_sq_le (by refine le_trans (le_of_eq ?_) h.lo; norm_num)
      have m1 : 3 * Orbits.K / Real.sqrt 2 * |jde - timeP| ≤ 0.037 * 2 ^ 40 := mul_le_mul c2 h.far (abs_nonneg _) (by norm_num)
      have m2 : 3 * Orbits.K / Real.sqrt 2 * |jde - timeP| / q ≤ 0.037 * 2 ^ 40 * 2 ^ 40 := by
        rw [div_le_iff₀ hq]
        refine m1.trans ?_
        have := mul_le_mul_of_nonneg_left h.lo (by positivity : (0 : ℝ) ≤ 0.037 * 2 ^ 40 * 2 ^ 40)
        refine le_trans (le_of_eq ?_) this
        norm_num
      have m3 : 3 * Orbits.K / Real.sqrt 2 * |jde - timeP| / q / Real.sqrt q ≤ 0.037 * 2 ^ 40 * 2 ^ 40 * 2 ^ 20 := by
        rw [div_le_iff₀ (lt_of_lt_of_le (by positivity) hs1)]
        refine m2.trans ?_
        have := mul_le_mul_of_nonneg_left hs1 (by positivity : (0 : ℝ) ≤ 0.037 * 2 ^ 40 * 2 ^ 40 * 2 ^ 20)
        refine le_trans (le_of_eq ?_) this
        norm_num
      refine (mul_le_mul_of_nonneg_right m3 (by norm_num)).trans (by norm_num)
    have hH : Real.sqrt (g0 * g0 + 1) ≤ |g0| + 1 := Real.sqrt_le_iff.mpr ⟨by positivity, by nlinarith [abs_nonneg g0, abs_mul_abs_self g0]⟩
    have : Y0 ^ 3 ≤ 2 ^ 122 := by
      rw [hY3]
      have := le_abs_self g0
      norm_num at *
      linarith
    have hY1 : Y0 ≤ 2 ^ 122 := by
      by_contra hn
      push Not at hn
      have : (1 : ℝ) ≤ Y0 := le_trans (by norm_num) hn.le
      nlinarith [mul_self_nonneg (Y0 - 1), mul_pos hY0 hY0]
    exact one_div_le_one_div_of_le hY0 (hY1.trans (pow_le_pow_right₀ (by norm_num) (by norm_num)))
  have hsn := s_near r3 hY0 hc2 hc1 hbig
  have hNN : Real.sqrt (s0 ^ 2 + 4) = Y0 + 1 / Y0 := by
    rw [Real.sqrt_eq_iff_mul_self_eq (by positivity) (by positivity), hbar]
    generalize 1 / Y0 = Z at *
    linear_combination -4 * hYZ
  rw [← hbar, ← hNN] at hsn
  have hYne : Y ≠ 0 := by
    obtain ⟨a, ha, rfl⟩ := r3
    have := (abs_le.mp ha).1
    exact mul_ne_zero hY0.ne' (by linarith)
  rcases h2 with ⟨h0, -⟩ | ⟨-, e, he, rfl⟩
  · exact absurd h0 hYne
  refine ⟨_, _, rfl, ?_, ?_⟩
  · have a1 := atan_near hsn (by linarith) hc2
    have a2 := hf.atan (s Y)
    have a3 := fl_tiny (2 * f.atan (s Y))
    have a4 : |Real.arctan (s Y)| ≤ 1.6 := by
      have := Real.pi_lt_d2
      rw [abs_le]
      constructor
      · linarith [Real.neg_pi_div_two_lt_arctan (s Y)]
      · linarith [Real.arctan_lt_pi_div_two (s Y)]
    have ht5 : (1 : ℝ) / 2 ^ 500 ≤ 1 / 2 ^ 60 := one_div_le_one_div_of_le (by positivity) (pow_le_pow_right₀ (by norm_num) (by norm_num))
    generalize (1 : ℝ) / 2 ^ 500 = t at *
    rw [abs_mul, abs_two] at a3
    have a5 : |f.atan (s Y)| ≤ 1.7 := by
      have := abs_add_le (f.atan (s Y) - Real.arctan (s Y)) (Real.arctan (s Y))
      rw [sub_add_cancel] at this
      norm_num at *
      linarith
    have a6 : |fl (2 * f.atan (s Y)) - 2 * Real.arctan s0| ≤ |fl (2 * f.atan (s Y)) - 2 * f.atan (s Y)| + 2 * |f.atan (s Y) - Real.arctan (s Y)| + 2 * |Real.arctan (s Y) - Real.arctan s0| := by
      have b1 := abs_sub_le (fl (2 * f.atan (s Y))) (2 * f.atan (s Y)) (2 * Real.arctan s0)
      have b2 := abs_sub_le (f.atan (s Y)) (Real.arctan (s Y)) (Real.arctan s0)
      rw [show 2 * f.atan (s Y) - 2 * Real.arctan s0 = 2 * (f.atan (s Y) - Real.arctan s0) by ring, abs_mul, abs_two] at b1
      linarith
    generalize |f.atan (s Y)| = y1 at *
    generalize |fl (2 * f.atan (s Y)) - 2 * f.atan (s Y)| = y2 at *
    generalize |f.atan (s Y) - Real.arctan (s Y)| = y3 at *
    generalize |Real.arctan (s Y) - Real.arctan s0| = y4 at *
    norm_num at *
    linarith
  · have e1 := e_rel hsn hc1 hc2 he
    have e2 := rel_fl (rel_mul (rel_self q) e1) (by norm_num at *; linarith) (Or.inr (low_of (by
      rw [abs_of_pos (mul_pos hq (by nlinarith [mul_self_nonneg s0]))]
      refine le_trans ?_ (le_trans h.lo (le_mul_of_one_le_right hq.le (by nlinarith [mul_self_nonneg s0])))
      exact one_div_le_one_div_of_le (by positivity) (pow_le_pow_right₀ (by norm_num) (by norm_num)))))
    obtain ⟨δ, hδ, hr⟩ := e2
    rw [hr, show q * (1 + s0 * s0) * (1 + δ) - q * (1 + s0 ^ 2) = δ * (q * (1 + s0 ^ 2)) by ring, abs_mul, abs_of_pos (mul_pos hq (by positivity : 0 < 1 + s0 ^ 2))]
    refine mul_le_mul_of_nonneg_right (hδ.trans ?_) (by positivity)
    norm_num at *
    linarith

/-- C202.  Missing: a bound on the error that does not grow with the time before perihelion; the code has none (`C202_violation`).
From perihelion on, the true anomaly is that of the parabola to 4·10⁻¹⁴ rad and the distance is right to 3 parts in 10¹⁴. -/
theorem C202_after_partial {f : Fns} (hf : f.Ok) {timeP q jde s0 : ℝ} {out : Option (ℝ × ℝ)} (h : InRange timeP q jde) (ht : timeP ≤ jde)
    (hs : s0 ^ 3 + 3 * s0 = 3 * Orbits.K / (Real.sqrt 2 * q ^ (3 / 2 : ℝ)) * (jde - timeP)) (hout : AnomalyDistance f timeP q jde out) :
    ∃ ν r, out = some (ν, r) ∧ |ν - 2 * Real.arctan s0| ≤ 4e-14 ∧ |r - q * (1 + s0 ^ 2)| ≤ 3e-14 * (q * (1 + s0 ^ 2)) := by
  have hq : 0 < q := lt_of_lt_of_le (by positivity) h.lo
  have hg0 : 0 ≤ half timeP q jde := by
    rw [half_eq hq]
    have := const_bounds.1
    have : 0 ≤ 3 * Orbits.K / Real.sqrt 2 := by linarith
    have := sub_nonneg.mpr ht
    have := Real.sqrt_nonneg q
    positivity
  have hg : 0 ≤ G timeP q jde := by
    obtain ⟨a, ha, e⟩ := g_rel h
    rw [e]
    refine mul_nonneg hg0 ?_
    have := (abs_le.mp ha).1
    norm_num at this
    linarith
  have := main_near hf (L := 1) h (hs.trans (by unfold half; ring)) le_rfl (by norm_num) (by linarith) hout
  simpa only [mul_one] using this

/-- C202.  Missing: a bound that does not grow with the time before perihelion.  Before perihelion the same holds with the errors
multiplied by 3(1 + G²), 2G being the right hand side of Barker's equation, as long as |G| ≤ 10⁶. -/
theorem C202_before_partial {f : Fns} (hf : f.Ok) {timeP q jde s0 : ℝ} {out : Option (ℝ × ℝ)} (h : InRange timeP q jde)
    (hG : |3 * Orbits.K / (Real.sqrt 2 * q ^ (3 / 2 : ℝ)) * (jde - timeP) / 2| ≤ 10 ^ 6)
    (hs : s0 ^ 3 + 3 * s0 = 3 * Orbits.K / (Real.sqrt 2 * q ^ (3 / 2 : ℝ)) * (jde - timeP)) (hout : AnomalyDistance f timeP q jde out) :
    let L := 3 * (1 + (3 * Orbits.K / (Real.sqrt 2 * q ^ (3 / 2 : ℝ)) * (jde - timeP) / 2) ^ 2)
    ∃ ν r, out = some (ν, r) ∧ |ν - 2 * Real.arctan s0| ≤ 4e-14 * L ∧ |r - q * (1 + s0 ^ 2)| ≤ 3e-14 * L * (q * (1 + s0 ^ 2)) := by
  intro L
  have hL : L = 3 * (1 + half timeP q jde ^ 2) := rfl
  change |half timeP q jde| ≤ 10 ^ 6 at hG
  have hsq : half timeP q jde ^ 2 ≤ 10 ^ 12 := by
    rw [← sq_abs]
    exact (pow_le_pow_left₀ (abs_nonneg _) hG 2).trans (by norm_num)
  have hsq0 := sq_nonneg (half timeP q jde)
  refine main_near hf (L := L) h (hs.trans (by unfold half; ring)) (by rw [hL]; linarith) (by rw [hL]; norm_num at *; linarith) ?_ hout
  have hg2 : G timeP q jde ^ 2 ≤ 1.1 * half timeP q jde ^ 2 := by
    obtain ⟨a, ha, e⟩ := g_rel h
    rw [e, mul_pow, mul_comm]
    refine mul_le_mul_of_nonneg_right ?_ hsq0
    have := abs_le.mp ha
    norm_num at this ⊢
    nlinarith
  set g := G timeP q jde
  have s1 : Real.sqrt (g * g + 1) ^ 2 = g * g + 1 := Real.sq_sqrt (by nlinarith [mul_self_nonneg g])
  have p := Real.sqrt_nonneg (g * g + 1)
  set H := Real.sqrt (g * g + 1)
  have hA := sum_pos' g
  have q1 : |g| ≤ H := abs_le_of_sq_le_sq (by nlinarith) p
  have hgH := abs_le.mp q1
  have e1 : H = H * (H - g) * (g + H) := by
    have : (H - g) * (g + H) = 1 := by linear_combination s1
    rw [mul_assoc, this, mul_one]
  have e2 : H * (H - g) ≤ L := by
    have : H * (H - g) ≤ H * (2 * H) := mul_le_mul_of_nonneg_left (by linarith) p
    rw [hL]
    nlinarith
  calc H = H * (H - g) * (g + H) := e1
    _ ≤ L * (g + H) := mul_le_mul_of_nonneg_right e2 hA.le

/-- A G of this size before perihelion cancels altogether. -/
theorem cancels {x h : ℝ} (hx : -1.4 * 2 ^ 27 ≤ x) (hx' : x ≤ -1.3 * 2 ^ 27) (hh : MulAdd 1 (fl x) (fl x) h) : fl x + fl (Real.sqrt h) = 0 := by
  have hax : |x| = -x := abs_of_neg (by norm_num at *; linarith)
  have hlog : Int.log 2 |x| = 27 := by
    have hne : x ≠ 0 := by intro e; rw [e] at hx'; norm_num at hx'
    obtain ⟨l1, l2⟩ := log_spec hne
    rw [hax] at *
    have a : Int.log 2 (-x) < 28 := by
      have : (2 : ℝ) ^ Int.log 2 (-x) < 2 ^ (28 : ℤ) := lt_of_le_of_lt l1 (by norm_num at *; linarith)
      exact (zpow_lt_zpow_iff_right₀ (by norm_num)).mp this
    have b : 27 < Int.log 2 (-x) + 1 := by
      have : (2 : ℝ) ^ (27 : ℤ) < 2 ^ (Int.log 2 (-x) + 1) := lt_of_le_of_lt (by norm_num at *; linarith) l2
      exact (zpow_lt_zpow_iff_right₀ (by norm_num)).mp this
    omega
  have hexp : expo x = -25 := by unfold expo; rw [hlog]; norm_num
  have hn := fl_near x
  rw [hexp] at hn
  have hn' := abs_le.mp hn
  norm_num at hn'
  obtain ⟨n, hg⟩ : ∃ n : ℤ, fl x = n * 2 ^ (-25 : ℤ) := ⟨rne (x / 2 ^ expo x), by unfold fl; rw [hexp]⟩
  set g := fl x
  have g1 : -1.41 * 2 ^ 27 ≤ g := by norm_num at *; linarith
  have g2 : g ≤ -1.29 * 2 ^ 27 := by norm_num at *; linarith
  have gg1 : (1.29 * 2 ^ 27) ^ 2 ≤ g * g := by norm_num at *; nlinarith
  have gg2 : g * g ≤ (1.41 * 2 ^ 27) ^ 2 := by norm_num at *; nlinarith
  have hh' : |h - g * g| ≤ 5 := by
    have f1 := fl_near_lt (x := g * g) (n := 55) (by rw [abs_of_nonneg (mul_self_nonneg g)]; norm_num at *; linarith) (by norm_num)
    have f1' := abs_le.mp f1
    rcases hh with rfl | rfl
    · have f2 := fl_near_lt (x := 1 + fl (g * g)) (n := 55) (by
        norm_num at *
        rw [abs_lt]; constructor <;> linarith) (by norm_num)
      have f2' := abs_le.mp f2
      rw [abs_le]
      norm_num at *
      constructor <;> linarith
    · have f2 := fl_near_lt (x := 1 + g * g) (n := 55) (by
        norm_num at *
        rw [abs_lt]; constructor <;> linarith) (by norm_num)
      have f2' := abs_le.mp f2
      rw [abs_le]
      norm_num at *
      constructor <;> linarith
  have hb := abs_le.mp hh'
  have hpos : 0 ≤ h := by norm_num at *; linarith
  have hs2 := Real.sq_sqrt hpos
  have hs0 := Real.sqrt_nonneg h
  have hlo : 2 ^ (27 : ℤ) ≤ Real.sqrt h := Real.le_sqrt_of_sq_le (by norm_num at *; linarith)
  have key : |Real.sqrt h - -g| < 2 ^ (-(25 : ℤ)) / 2 := by
    have e : (Real.sqrt h - -g) * (Real.sqrt h + -g) = h - g * g := by linear_combination hs2
    have e2 : |Real.sqrt h - -g| * (Real.sqrt h + -g) ≤ 5 := by
      rw [← abs_of_pos (by norm_num at *; linarith : 0 < Real.sqrt h + -g), ← abs_mul, e]
      exact hh'
    have hlo2 : 1.28 * 2 ^ 27 ≤ Real.sqrt h := Real.le_sqrt_of_sq_le (by norm_num at *; linarith)
    by_contra hc
    push Not at hc
    have : 2 ^ (-(25 : ℤ)) / 2 * (1.28 * 2 ^ 27 + 1.29 * 2 ^ 27) ≤ |Real.sqrt h - -g| * (Real.sqrt h + -g) :=
      mul_le_mul hc (by linarith) (by norm_num) (abs_nonneg _)
    norm_num at this e2
    linarith
  have hfl := Verif.Props.Coord64v.fl_eq (x := Real.sqrt h) (S := -g) 25 (-n) (by norm_num) (by rw [hg]; push_cast; ring) (by
    have : |((-n : ℤ) : ℝ)| ≤ 2 ^ 53 := by
      rw [Int.cast_neg, abs_neg]
      have e : (n : ℝ) = g * 2 ^ 25 := by rw [hg]; norm_num; ring
      rw [e, abs_le]
      norm_num at *
      constructor <;> linarith
    exact_mod_cast this) (by norm_num at *; exact hlo) key
  rw [hfl]
  ring

/-- C202.  The distance should be finite for every date.  For a comet with perihelion distance 1/256 AU it is infinite 2 420 000 days
before perihelion, whatever cube root and arctangent are used and whether or not products are fused; on the parabola it is below 3000 AU. -/
theorem C202_violation {f : Fns} (hf : f.Ok) {out : Option (ℝ × ℝ)} (hout : AnomalyDistance f 2451545 (1 / 256) 31545 out) :
    out = none ∧ InRange 2451545 (1 / 256) 31545 ∧
    ∃ s0 : ℝ, s0 ^ 3 + 3 * s0 = 3 * Orbits.K / (Real.sqrt 2 * (1 / 256 : ℝ) ^ (3 / 2 : ℝ)) * (31545 - 2451545) ∧ 1 / 256 * (1 + s0 ^ 2) < 3000 := by
  have hr : InRange 2451545 (1 / 256) 31545 := ⟨by norm_num, by norm_num, by right; norm_num, by norm_num⟩
  have hz : f.cbrt 0 = 0 := by
    have := hf.cbrt 0
    norm_num at this
    exact this
  have hg0 : half 2451545 (1 / 256) 31545 = -(3 * Orbits.K / Real.sqrt 2) * 2420000 * 2048 := by
    rw [half_eq (by norm_num), show Real.sqrt (1 / 256 : ℝ) = 1 / 16 by
      rw [show (1 / 256 : ℝ) = (1 / 16) ^ 2 by norm_num, Real.sqrt_sq (by norm_num)]]
    ring
  have hC : 0.03649 ≤ 3 * Orbits.K / Real.sqrt 2 ∧ 3 * Orbits.K / Real.sqrt 2 ≤ 0.0365 := by
    have h0 : 0 < Real.sqrt 2 := Real.sqrt_pos.mpr (by norm_num)
    have h1 : Real.sqrt 2 ≤ 1.41422 := Real.sqrt_le_iff.mpr ⟨by norm_num, by norm_num⟩
    have h2 : 1.4142 ≤ Real.sqrt 2 := Real.le_sqrt_of_sq_le (by norm_num)
    unfold Orbits.K
    rw [le_div_iff₀ h0, div_le_iff₀ h0]
    norm_num at *
    constructor <;> linarith
  obtain ⟨C1, C2⟩ := hC
  have hbar : ∃ s0 : ℝ, s0 ^ 3 + 3 * s0 = 2 * half 2451545 (1 / 256) 31545 := by
    have := (C42_parabolic 2451545 (1 / 256) 31545 (by norm_num)).1
    exact ⟨_, this.trans (by unfold half; ring)⟩
  obtain ⟨s0, hs0⟩ := hbar
  refine ⟨?_, hr, s0, hs0.trans (by unfold half; ring), ?_⟩
  · obtain ⟨h, Y, h1, hY, h2⟩ := hout
    have hgr : -1.4 * 2 ^ 27 ≤ W 2451545 (1 / 256) 31545 * 0.5 ∧ W 2451545 (1 / 256) 31545 * 0.5 ≤ -1.3 * 2 ^ 27 := by
      obtain ⟨a, ha, e⟩ := g_rel hr
      have ha' := abs_le.mp ha
      rw [hg0] at e
      have hb : |G 2451545 (1 / 256) 31545 - W 2451545 (1 / 256) 31545 * 0.5| ≤ _ := fl_tiny _
      have ht5 : (1 : ℝ) / 2 ^ 500 ≤ 1 / 2 ^ 60 := one_div_le_one_div_of_le (by positivity) (pow_le_pow_right₀ (by norm_num) (by norm_num))
      generalize (1 : ℝ) / 2 ^ 500 = t at *
      generalize W 2451545 (1 / 256) 31545 * 0.5 = w at *
      generalize G 2451545 (1 / 256) 31545 = g at *
      generalize 3 * Orbits.K / Real.sqrt 2 = C at *
      have hCa : |C * a| ≤ 0.0365 * (9 / 2 ^ 53) := by
        rw [abs_mul, abs_of_pos (by linarith : 0 < C)]
        exact mul_le_mul C2 ha (abs_nonneg _) (by norm_num)
      have hCa' := abs_le.mp hCa
      have e' : g = -(C + C * a) * 2420000 * 2048 := by rw [e]; ring
      have hb' := abs_le.mp hb
      have hw : |w| ≤ 2 * 2 ^ 28 := by
        by_contra hc
        push Not at hc
        rcases abs_cases w with ⟨q, -⟩ | ⟨q, -⟩ <;> rw [q] at hb' hc <;> norm_num at * <;> linarith
      norm_num at *
      constructor <;> linarith
    have hc := cancels hgr.1 hgr.2 h1
    change G 2451545 (1 / 256) 31545 + _ = 0 at hc
    rw [hc, fl_zero, hz] at hY
    rcases h2 with ⟨-, h3⟩ | ⟨h3, -⟩
    · exact h3
    · exact absurd hY h3
  · rw [hg0] at hs0
    generalize 3 * Orbits.K / Real.sqrt 2 = C at *
    have hs1 : -800 < s0 := by
      by_contra hc
      push Not at hc
      nlinarith [sq_nonneg (s0 - 400), sq_nonneg (s0 + 800)]
    have hs2 : s0 < 0 := by
      by_contra hc
      push Not at hc
      nlinarith [mul_nonneg hc (sq_nonneg s0)]
    nlinarith

/-- Functions as assumed. -/
noncomputable def idealF : Fns := ⟨Orbits.cbrt, Real.arctan⟩

theorem idealF_ok : idealF.Ok where
  cbrt y := by
    have : Orbits.cbrt (y ^ 3) = y := by
      have h := Verif.Lemmas.cbrt_cube (y ^ 3)
      exact (Odd.strictMono_pow (by decide : Odd 3)).injective h
    change |Orbits.cbrt (y ^ 3) - y| ≤ _
    rw [this, sub_self, abs_zero]; positivity
  atan x := by simp [idealF]; norm_num

/-- Every call returns. -/
theorem ad_exists (f : Fns) (timeP q jde : ℝ) : ∃ out, AnomalyDistance f timeP q jde out := by
  by_cases hY : f.cbrt (fl (G timeP q jde + fl (Real.sqrt (fl (1 + G timeP q jde * G timeP q jde))))) = 0
  · exact ⟨none, _, _, Or.inr rfl, rfl, Or.inl ⟨hY, rfl⟩⟩
  · exact ⟨_, _, _, Or.inr rfl, rfl, Or.inr ⟨hY, _, Or.inr rfl, rfl⟩⟩

/-- The hypotheses are met: such functions exist, every call returns, Barker's equation has a root, and the comet of the book's
example (perihelion distance 1.48678 AU) is within range on both sides of perihelion. -/
theorem C202_example : idealF.Ok ∧ (∀ timeP q jde, ∃ out, AnomalyDistance idealF timeP q jde out) ∧
    (∀ M : ℝ, ∃ s0 : ℝ, s0 ^ 3 + 3 * s0 = M) ∧ InRange 2450917.9358 1.48678104 2451030.5 ∧ InRange 2450917.9358 1.48678104 2450800 ∧
    |half 2450917.9358 1.48678104 2450800| ≤ 10 ^ 6 := by
  refine ⟨idealF_ok, ad_exists idealF, fun M => ?_, ⟨by norm_num, by norm_num, by right; norm_num, by norm_num⟩, ⟨by norm_num, by norm_num, by right; norm_num [abs_of_neg], by norm_num [abs_of_neg]⟩, ?_⟩
  · have hc : Continuous fun s : ℝ => s ^ 3 + 3 * s := by fun_prop
    have := intermediate_value_Icc (a := -(1 + |M|)) (b := 1 + |M|) (by linarith [abs_nonneg M]) hc.continuousOn
    obtain ⟨s0, -, hs⟩ := this (show M ∈ _ from by
      have h1 := neg_abs_le M
      have h2 := le_abs_self M
      have h3 := abs_nonneg M
      have h4 : 0 ≤ (1 + |M|) ^ 3 := by positivity
      constructor
      · show (-(1 + |M|)) ^ 3 + 3 * -(1 + |M|) ≤ M
        rw [show (-(1 + |M|)) ^ 3 = -(1 + |M|) ^ 3 by ring]
        linarith
      · show M ≤ (1 + |M|) ^ 3 + 3 * (1 + |M|)
        linarith)
    exact ⟨s0, hs⟩
  · rw [half_eq (by norm_num)]
    obtain ⟨c1, c2⟩ := const_bounds
    have hs : 1 ≤ Real.sqrt 1.48678104 := Real.one_le_sqrt.mpr (by norm_num)
    have hx : |3 * Orbits.K / Real.sqrt 2 * (2450800 - 2450917.9358) / 1.48678104| ≤ 10 := by
      rw [abs_le]
      norm_num at *
      constructor <;> linarith
    rw [abs_mul, abs_div, abs_of_pos (by linarith : 0 < Real.sqrt 1.48678104), abs_of_pos (by norm_num : (0 : ℝ) < 0.5)]
    have := (div_le_self (abs_nonneg _) hs).trans hx
    norm_num at *
    linarith

end Verif.Props.Parabolic64v
