import Mathlib.Tactic
import Mathlib.Analysis.Complex.ExponentialBounds
import Verif.Model.Stellar64
import Verif.Props.Illum
import Verif.Props.Fit64
/-!
Property C207: combined magnitudes in double precision.
-/
namespace Verif.Props.Stellar64v

open Verif.Go.F64 Verif.Model.Kepler64 Verif.Model.Stellar64 Verif.Props.Fit64v

theorem log_ten : 2 ≤ Real.log 10 := by
  rw [Real.le_log_iff_exp_le (by norm_num)]
  have h := Real.exp_one_lt_d9
  have : Real.exp 2 = Real.exp 1 * Real.exp 1 := by rw [← Real.exp_add]; norm_num
  rw [this]
  have h0 := Real.exp_pos 1
  nlinarith

/-- A relative error is an absolute one of the logarithm. -/
theorem logb_rel {y Y κ : ℝ} (hY : 0 < Y) (hκ : κ ≤ 1 / 4) (h : |y - Y| ≤ κ * Y) : 0 < y ∧ |Real.logb 10 y - Real.logb 10 Y| ≤ κ := by
  have h' := abs_le.mp h
  have y0 : 0 < y := by nlinarith
  refine ⟨y0, ?_⟩
  have hk : 0 ≤ κ := by
    by_contra hc
    have := abs_nonneg (y - Y)
    nlinarith
  have q0 : 0 < y / Y := div_pos y0 hY
  have qu : y / Y ≤ 1 + κ := by rw [div_le_iff₀ hY]; linarith
  have ql : 1 - κ ≤ y / Y := by rw [le_div_iff₀ hY]; linarith
  have u := Real.log_le_sub_one_of_pos q0
  have l := Real.one_sub_inv_le_log_of_pos q0
  have inv : (y / Y)⁻¹ ≤ 1 + 2 * κ := by
    rw [inv_le_comm₀ q0 (by linarith)]
    refine le_trans ?_ ql
    rw [inv_le_iff_one_le_mul₀ (by linarith)]
    nlinarith
  have e : Real.logb 10 y - Real.logb 10 Y = Real.log (y / Y) / Real.log 10 := by
    unfold Real.logb
    rw [Real.log_div y0.ne' hY.ne']
    ring
  have t := log_ten
  rw [e, abs_div, abs_of_pos (by linarith : 0 < Real.log 10), div_le_iff₀ (by linarith)]
  have : |Real.log (y / Y)| ≤ 2 * κ := by rw [abs_le]; constructor <;> linarith
  nlinarith

/-- log(10ˣ + 1) changes no faster than x. -/
theorem soft_lip (x X : ℝ) : |Real.logb 10 ((10 : ℝ) ^ x + 1) - Real.logb 10 ((10 : ℝ) ^ X + 1)| ≤ |x - X| := by
  have key : ∀ p q : ℝ, p ≤ q → Real.logb 10 ((10 : ℝ) ^ p + 1) ≤ Real.logb 10 ((10 : ℝ) ^ q + 1) ∧
      Real.logb 10 ((10 : ℝ) ^ q + 1) ≤ Real.logb 10 ((10 : ℝ) ^ p + 1) + (q - p) := by
    intro p q h
    have p0 : (0 : ℝ) < 10 ^ p := Real.rpow_pos_of_pos (by norm_num) _
    have q0 : (0 : ℝ) < 10 ^ q := Real.rpow_pos_of_pos (by norm_num) _
    have d0 : (0 : ℝ) < 10 ^ (q - p) := Real.rpow_pos_of_pos (by norm_num) _
    have d1 : (1 : ℝ) ≤ 10 ^ (q - p) := Real.one_le_rpow (by norm_num) (by linarith)
    have e : (10 : ℝ) ^ p * 10 ^ (q - p) = 10 ^ q := by rw [← Real.rpow_add (by norm_num)]; congr 1; ring
    refine ⟨Real.logb_le_logb_of_le (by norm_num) (by linarith) (by nlinarith), ?_⟩
    have e2 : Real.logb 10 ((10 : ℝ) ^ p + 1) + (q - p) = Real.logb 10 (((10 : ℝ) ^ p + 1) * 10 ^ (q - p)) := by
      rw [Real.logb_mul (by positivity) d0.ne', Real.logb_rpow (by norm_num) (by norm_num)]
    rw [e2]
    exact Real.logb_le_logb_of_le (by norm_num) (by positivity) (by nlinarith)
  rcases le_total x X with h | h
  · obtain ⟨a, b⟩ := key x X h
    rw [abs_of_nonpos (by linarith), abs_of_nonpos (by linarith)]
    linarith
  · obtain ⟨a, b⟩ := key X x h
    rw [abs_of_nonneg (by linarith), abs_of_nonneg (by linarith)]
    linarith

/-- The exponent. -/
theorem expo_near {m1 m2 : ℝ} (h1 : |m1| ≤ 50) (h2 : |m2| ≤ 50) : |expo10 m1 m2 - 0.4 * (m2 - m1)| ≤ 1.9e-14 ∧ |expo10 m1 m2| ≤ 40.1 := by
  have b1 := abs_le.mp h1
  have b2 := abs_le.mp h2
  have hd : |m2 - m1| ≤ 100 := by rw [abs_le]; constructor <;> linarith
  have f1 := fl_near_lt (x := m2 - m1) (n := 7) (lt_of_le_of_lt hd (by norm_num)) (by norm_num)
  have f2 := fl_near_lt (x := (0.4 : ℝ)) (n := -1) (by rw [abs_of_pos (by norm_num)]; norm_num) (by norm_num)
  unfold expo10
  generalize fl (m2 - m1) = d at *
  generalize fl (0.4 : ℝ) = k at *
  have hdd : |d| ≤ 101 := by
    have := abs_sub_abs_le_abs_sub d (m2 - m1)
    norm_num at *
    linarith
  have e : |k * d - 0.4 * (m2 - m1)| ≤ 1e-14 := by
    rw [show k * d - 0.4 * (m2 - m1) = (k - 0.4) * d + 0.4 * (d - (m2 - m1)) by ring]
    refine (abs_add_le _ _).trans ?_
    rw [abs_mul, abs_mul]
    have := mul_le_mul f2 hdd (abs_nonneg _) (by positivity)
    norm_num at *
    linarith
  have hb : |k * d| ≤ 40.05 := by
    have := abs_sub_abs_le_abs_sub (k * d) (0.4 * (m2 - m1))
    rw [abs_mul 0.4] at this
    norm_num at *
    linarith
  have f3 := fl_near_lt (x := k * d) (n := 6) (lt_of_le_of_lt hb (by norm_num)) (by norm_num)
  have t := abs_sub_le (fl (k * d)) (k * d) (0.4 * (m2 - m1))
  have t2 := abs_sub_abs_le_abs_sub (fl (k * d)) (k * d)
  constructor
  · norm_num at *
    linarith
  · norm_num at *
    linarith

/-- C207.  The combined magnitude of two stars is right to 3e-13. -/
theorem C207_sum {f : Fns} (hf : f.Ok) {m1 m2 s : ℝ} (h1 : |m1| ≤ 50) (h2 : |m2| ≤ 50) (h : Sum f m1 m2 s) : |s - Verif.Model.Stellar.Sum m1 m2| ≤ 3e-13 := by
  obtain ⟨e1, e2⟩ := expo_near h1 h2
  have hS : Verif.Model.Stellar.Sum m1 m2 = m2 - 2.5 * Real.logb 10 ((10 : ℝ) ^ (0.4 * (m2 - m1)) + 1) := rfl
  rw [hS]
  have hd : |0.4 * (m2 - m1)| ≤ 40 := by
    have b1 := abs_le.mp h1
    have b2 := abs_le.mp h2
    rw [abs_le]
    constructor <;> norm_num <;> linarith
  unfold Verif.Model.Stellar64.Sum at h
  generalize expo10 m1 m2 = x at *
  generalize 0.4 * (m2 - m1) = X at *
  have x0 : (0 : ℝ) < 10 ^ x := Real.rpow_pos_of_pos (by norm_num) _
  have hp := hf.pow x (e2.trans (by norm_num))
  have hft := fl_tiny (f.pow10 x + 1)
  have hY : |fl (f.pow10 x + 1) - ((10 : ℝ) ^ x + 1)| ≤ 1.02e-14 * ((10 : ℝ) ^ x + 1) := by
    have hp' := abs_le.mp hp
    have pos : 0 < f.pow10 x + 1 := by norm_num at *; linarith
    rw [abs_of_pos pos] at hft
    have he : (1 : ℝ) / 2 ^ 500 ≤ 1 / 2 ^ 60 := one_div_le_one_div_of_le (by positivity) (pow_le_pow_right₀ (by norm_num) (by norm_num))
    have t := abs_sub_le (fl (f.pow10 x + 1)) (f.pow10 x + 1) ((10 : ℝ) ^ x + 1)
    rw [show f.pow10 x + 1 - ((10 : ℝ) ^ x + 1) = f.pow10 x - (10 : ℝ) ^ x by ring] at t
    generalize (1 : ℝ) / 2 ^ 500 = ε at *
    generalize (10 : ℝ) ^ x = P at *
    generalize |fl (f.pow10 x + 1) - (P + 1)| = z at *
    norm_num at *
    linarith
  obtain ⟨y0, hl⟩ := logb_rel (by linarith) (by norm_num) hY
  have lg := hf.log _ y0
  generalize fl (f.pow10 x + 1) = y at *
  have lip := soft_lip x X
  have lip0 := soft_lip X 0
  have l2 : 0 ≤ Real.logb 10 ((10 : ℝ) ^ (0 : ℝ) + 1) ∧ Real.logb 10 ((10 : ℝ) ^ (0 : ℝ) + 1) ≤ 1 := by
    rw [Real.rpow_zero]
    refine ⟨Real.logb_nonneg (by norm_num) (by norm_num), ?_⟩
    rw [Real.logb_le_iff_le_rpow (by norm_num) (by norm_num), Real.rpow_one]
    norm_num
  generalize Real.logb 10 ((10 : ℝ) ^ (0 : ℝ) + 1) = c0 at *
  generalize Real.logb 10 ((10 : ℝ) ^ X + 1) = G at *
  generalize Real.logb 10 ((10 : ℝ) ^ x + 1) = g at *
  generalize Real.logb 10 y = b at *
  generalize f.log10 y = l at *
  rw [sub_zero] at lip0
  have a1 := abs_le.mp (lip0.trans hd)
  have a2 := abs_le.mp (lip.trans e1)
  have a3 := abs_le.mp hl
  have hG : |G| ≤ 41 := by rw [abs_le]; constructor <;> linarith
  have hb : |b| ≤ 42 := by rw [abs_le]; constructor <;> norm_num at * <;> linarith
  have hlb : |l - b| ≤ 4.4e-14 := lg.trans (by norm_num at *; linarith)
  have a4 := abs_le.mp hlb
  have hlG : |l - G| ≤ 7.4e-14 := by rw [abs_le]; constructor <;> norm_num at * <;> linarith
  have a5 := abs_le.mp hlG
  have a6 := abs_le.mp hG
  have a7 := abs_le.mp h2
  have k1 : |2.5 * l| < 2 ^ 7 := by rw [abs_lt]; constructor <;> norm_num at * <;> linarith
  have f1 := fl_near_lt (x := 2.5 * l) (n := 7) (by exact_mod_cast k1) (by norm_num)
  have k2 := abs_le.mp f1
  have fin : ∀ p : ℝ, |p - 2.5 * l| ≤ 1e-14 → |fl (m2 - p) - (m2 - 2.5 * G)| ≤ 3e-13 := by
    intro p hp
    have q := abs_le.mp hp
    have f2 := fl_near_lt (x := m2 - p) (n := 8) (by rw [abs_lt]; constructor <;> norm_num at * <;> linarith) (by norm_num)
    have q2 := abs_le.mp f2
    rw [abs_le]
    constructor <;> norm_num at * <;> linarith
  rcases h with rfl | rfl
  · exact fin _ (f1.trans (by norm_num))
  · exact fin _ (by rw [sub_self, abs_zero]; norm_num)

/-- C207.  The order of the stars does not matter, to 6e-13. -/
theorem C207_order {f : Fns} (hf : f.Ok) {m1 m2 s t : ℝ} (h1 : |m1| ≤ 50) (h2 : |m2| ≤ 50) (hs : Sum f m1 m2 s) (ht : Sum f m2 m1 t) : |s - t| ≤ 6e-13 := by
  have a := abs_le.mp (C207_sum hf h1 h2 hs)
  have b := abs_le.mp (C207_sum hf h2 h1 ht)
  rw [C74_sum_comm m2 m1] at b
  rw [abs_le]
  constructor <;> norm_num at * <;> linarith

/-- C207.  `Difference` undoes `Ratio`, to 3e-13. -/
theorem C207_ratio {f : Fns} (hf : f.Ok) {m1 m2 : ℝ} (h1 : |m1| ≤ 50) (h2 : |m2| ≤ 50) : |Difference f (Ratio f m1 m2) - (m2 - m1)| ≤ 3e-13 := by
  obtain ⟨e1, e2⟩ := expo_near h1 h2
  have hd : |m2 - m1| ≤ 100 := by
    have b1 := abs_le.mp h1
    have b2 := abs_le.mp h2
    rw [abs_le]
    constructor <;> linarith
  unfold Difference Ratio
  generalize expo10 m1 m2 = x at *
  generalize m2 - m1 = d at *
  have x0 : (0 : ℝ) < 10 ^ x := Real.rpow_pos_of_pos (by norm_num) _
  obtain ⟨y0, hl⟩ := logb_rel x0 (by norm_num) (hf.pow x (e2.trans (by norm_num)))
  have lg := hf.log _ y0
  rw [Real.logb_rpow (by norm_num) (by norm_num)] at hl
  generalize Real.logb 10 (f.pow10 x) = b at *
  generalize f.log10 (f.pow10 x) = l at *
  have a1 := abs_le.mp e1
  have a2 := abs_le.mp e2
  have a3 := abs_le.mp hl
  have hb : |b| ≤ 42 := by rw [abs_le]; constructor <;> norm_num at * <;> linarith
  have hlb : |l - b| ≤ 4.4e-14 := lg.trans (by norm_num at *; linarith)
  have a4 := abs_le.mp hlb
  have f1 := fl_near_lt (x := 2.5 * l) (n := 7) (by rw [abs_lt]; constructor <;> norm_num at * <;> linarith) (by norm_num)
  have a5 := abs_le.mp f1
  rw [abs_le]
  constructor <;> norm_num at * <;> linarith

/-- One term of `SumN`. -/
theorem term_near {f : Fns} (hf : f.Ok) {m : ℝ} (h : |m| ≤ 50) : |f.pow10 (fl (fl (-0.4) * m)) - (10 : ℝ) ^ (-0.4 * m)| ≤ 3.2e-14 * (10 : ℝ) ^ (-0.4 * m) := by
  have f2 := fl_near_lt (x := (-0.4 : ℝ)) (n := -1) (by rw [abs_of_neg (by norm_num)]; norm_num) (by norm_num)
  generalize fl (-0.4 : ℝ) = k at *
  have e : |k * m - -0.4 * m| ≤ 1.5e-15 := by
    rw [show k * m - -0.4 * m = (k - -0.4) * m by ring, abs_mul]
    have := mul_le_mul f2 h (abs_nonneg _) (by positivity)
    norm_num at *
    linarith
  have hb := abs_le.mp h
  have e' := abs_le.mp e
  have hk : |k * m| ≤ 20.1 := by
    rw [abs_le]
    constructor <;> norm_num at * <;> linarith
  have f3 := fl_near_lt (x := k * m) (n := 5) (lt_of_le_of_lt hk (by norm_num)) (by norm_num)
  have hx : |fl (k * m) - -0.4 * m| ≤ 4e-15 := by
    have t := abs_sub_le (fl (k * m)) (k * m) (-0.4 * m)
    refine t.trans ((add_le_add f3 e).trans (by norm_num))
  have hx2 : |fl (k * m)| ≤ 50 := by
    have a := abs_le.mp f3
    have b := abs_le.mp hk
    rw [abs_le]
    constructor <;> norm_num at * <;> linarith
  have hp := hf.pow _ hx2
  generalize fl (k * m) = x at *
  generalize -0.4 * m = X at *
  have X0 : (0 : ℝ) < 10 ^ X := Real.rpow_pos_of_pos (by norm_num) _
  have ex : (10 : ℝ) ^ x = 10 ^ X * Real.exp (Real.log 10 * (x - X)) := by
    rw [← Real.rpow_def_of_pos (by norm_num), ← Real.rpow_add (by norm_num)]
    congr 1
    ring
  have l1 := log_ten
  have l2 : Real.log 10 ≤ 2.5 := by
    rw [Real.log_le_iff_le_exp (by norm_num)]
    have h := Real.exp_one_gt_d9
    have e5 : Real.exp 2.5 * Real.exp 2.5 = Real.exp 1 ^ 5 := by rw [← Real.exp_add, ← Real.exp_nat_mul]; norm_num
    have p5 : (10 : ℝ) * 10 ≤ Real.exp 1 ^ 5 := le_trans (by norm_num) (pow_le_pow_left₀ (by norm_num) h.le 5)
    have z := Real.exp_pos 2.5
    nlinarith
  have ht : |Real.log 10 * (x - X)| ≤ 1e-14 := by
    rw [abs_mul, abs_of_pos (by linarith)]
    exact (mul_le_mul l2 hx (abs_nonneg _) (by norm_num)).trans (by norm_num)
  have hex := Real.abs_exp_sub_one_le (ht.trans (by norm_num))
  generalize Real.exp (Real.log 10 * (x - X)) = q at *
  have hq : |q - 1| ≤ 2e-14 := hex.trans (by norm_num at *; linarith)
  have hq' := abs_le.mp hq
  rw [ex] at hp
  generalize (10 : ℝ) ^ X = P at *
  have d : |P * q - P| ≤ 2e-14 * P := by
    rw [show P * q - P = (q - 1) * P by ring, abs_mul, abs_of_pos X0]
    exact mul_le_mul_of_nonneg_right hq X0.le
  have hPq : P * q ≤ P * 1.1 := mul_le_mul_of_nonneg_left (by norm_num at *; linarith) X0.le
  have t := abs_sub_le (f.pow10 x) (P * q) P
  generalize P * q = w at *
  norm_num at *
  linarith

/-- The loop of `SumN`: what rounding adds. -/
theorem flux_near {f : Fns} (hf : f.Ok) : ∀ (m : List ℝ) (k : ℕ) (s S : ℝ), (∀ x ∈ m, |x| ≤ 50) → k + m.length ≤ 2 ^ 20 → 0 ≤ S →
    |s - S| ≤ (3.2e-14 + k * (2 / 2 ^ 53)) * S →
    |flux f s m - m.foldl (fun s mi => s + (10 : ℝ) ^ (-0.4 * mi)) S| ≤ (3.2e-14 + (k + m.length : ℕ) * (2 / 2 ^ 53)) * m.foldl (fun s mi => s + (10 : ℝ) ^ (-0.4 * mi)) S ∧
    m.foldl (fun s mi => s + (10 : ℝ) ^ (-0.4 * mi)) S ≤ S + m.length * 10 ^ 20 ∧
    S + m.length * (1 / 10 ^ 20) ≤ m.foldl (fun s mi => s + (10 : ℝ) ^ (-0.4 * mi)) S := by
  intro m
  induction m with
  | nil =>
    intro k s S _ _ hS h
    simpa [flux] using h
  | cons a m ih =>
    intro k s S hm hk hS h
    have ha := hm a (by simp)
    have ht := term_near hf ha
    have hP : 1 / 10 ^ 20 ≤ (10 : ℝ) ^ (-0.4 * a) ∧ (10 : ℝ) ^ (-0.4 * a) ≤ 10 ^ 20 := by
      have b := abs_le.mp ha
      constructor
      · have : (1 : ℝ) / 10 ^ 20 = (10 : ℝ) ^ (-20 : ℝ) := by rw [Real.rpow_neg (by norm_num)]; norm_num
        rw [this]
        exact Real.rpow_le_rpow_of_exponent_le (by norm_num) (by norm_num at *; linarith)
      · have : (10 : ℝ) ^ 20 = (10 : ℝ) ^ (20 : ℝ) := by norm_num
        rw [this]
        exact Real.rpow_le_rpow_of_exponent_le (by norm_num) (by norm_num at *; linarith)
    have hlen : (a :: m).length = m.length + 1 := rfl
    rw [hlen] at hk ⊢
    have hflux : flux f s (a :: m) = flux f (fl (s + f.pow10 (fl (fl (-0.4) * a)))) m := rfl
    rw [hflux, List.foldl_cons]
    generalize f.pow10 (fl (fl (-0.4) * a)) = p at *
    generalize (10 : ℝ) ^ (-0.4 * a) = P at *
    have hft := fl_tiny (s + p)
    have he : (1 : ℝ) / 2 ^ 500 ≤ 1 / 2 ^ 53 * (1 / 10 ^ 22) := by
      refine (one_div_le_one_div_of_le (by positivity) (pow_le_pow_right₀ (by norm_num) (by norm_num : 150 ≤ 500))).trans ?_
      norm_num
    generalize (1 : ℝ) / 2 ^ 500 = ε at *
    have hkr : (k : ℝ) ≤ 2 ^ 20 := by exact_mod_cast (by omega : k ≤ 2 ^ 20)
    have hP0 : 0 < P := lt_of_lt_of_le (by positivity) hP.1
    have step : |fl (s + p) - (S + P)| ≤ (3.2e-14 + (k + 1 : ℕ) * (2 / 2 ^ 53)) * (S + P) := by
      have h' := abs_le.mp h
      have t' := abs_le.mp ht
      have hkS : (k : ℝ) * S ≤ 2 ^ 20 * S := mul_le_mul_of_nonneg_right hkr hS
      have hkP : 0 ≤ (k : ℝ) * P := by positivity
      have hkS0 : 0 ≤ (k : ℝ) * S := by positivity
      have ab : |s + p| ≤ 1.5 * (S + P) := by
        rw [abs_le]
        rw [show (3.2e-14 + (k : ℝ) * (2 / 2 ^ 53)) * S = 3.2e-14 * S + (k * S) * (2 / 2 ^ 53) by ring] at h'
        generalize (k : ℝ) * S = w at *
        clear hP ih hft he
        constructor <;> norm_num at * <;> linarith
      have t := abs_sub_le (fl (s + p)) (s + p) (S + P)
      have t2 : |s + p - (S + P)| ≤ |s - S| + |p - P| := by
        rw [show s + p - (S + P) = (s - S) + (p - P) by ring]
        exact abs_add_le _ _
      push_cast
      rw [show (3.2e-14 + ((k : ℝ) + 1) * (2 / 2 ^ 53)) * (S + P) = (3.2e-14 + (k : ℝ) * (2 / 2 ^ 53)) * S + 3.2e-14 * P + (k * P) * (2 / 2 ^ 53) + (2 / 2 ^ 53) * (S + P) by ring]
      generalize (k : ℝ) * P = w at *
      generalize (3.2e-14 + (k : ℝ) * (2 / 2 ^ 53)) * S = v at *
      generalize |s + p - (S + P)| = z1 at *
      generalize |fl (s + p) - (s + p)| = z2 at *
      generalize |fl (s + p) - (S + P)| = z3 at *
      generalize |s - S| = z4 at *
      generalize |p - P| = z5 at *
      generalize |s + p| = z6 at *
      have hP1 := hP.1
      clear ih hm hkr hkS hkS0 h' t'
      norm_num at *
      linarith
    obtain ⟨i1, i2, i3⟩ := ih (k + 1) (fl (s + p)) (S + P) (fun x hx => hm x (by simp [hx])) (by omega) (by linarith) step
    have hcast : k + (m.length + 1) = k + 1 + m.length := by omega
    rw [hcast]
    refine ⟨i1, ?_, ?_⟩
    · push_cast
      linarith [hP.2]
    · push_cast
      linarith [hP.1]

/-- C207.  The combined magnitude of n stars is right to 2e-13 and six units of rounding for each star. -/
theorem C207_sumN {f : Fns} (hf : f.Ok) {m : List ℝ} (hn : m ≠ []) (hm : ∀ x ∈ m, |x| ≤ 50) (hl : m.length ≤ 2 ^ 20) :
    |SumN f m - Verif.Model.Stellar.SumN m| ≤ 2e-13 + m.length * (6 / 2 ^ 53) := by
  obtain ⟨a, b, c⟩ := flux_near hf m 0 0 0 hm (by omega) le_rfl (by simp)
  have hS : Verif.Model.Stellar.SumN m = -2.5 * Real.logb 10 (m.foldl (fun s mi => s + (10 : ℝ) ^ (-0.4 * mi)) 0) := rfl
  rw [hS]
  unfold SumN
  have n1 : (1 : ℝ) ≤ m.length := by
    have := List.length_pos_iff.mpr hn
    exact_mod_cast this
  have n2 : (m.length : ℝ) ≤ 2 ^ 20 := by exact_mod_cast hl
  rw [Nat.zero_add] at a
  generalize m.foldl (fun s mi => s + (10 : ℝ) ^ (-0.4 * mi)) 0 = S at *
  generalize flux f 0 m = s at *
  generalize (m.length : ℝ) = n at *
  have S0 : 1 / 10 ^ 20 ≤ S := le_trans (by norm_num at *; linarith) c
  have S1 : S ≤ 10 ^ 27 := b.trans (by norm_num at *; linarith)
  have Sp : 0 < S := lt_of_lt_of_le (by positivity) S0
  obtain ⟨y0, hlr⟩ := logb_rel Sp (by norm_num at *; linarith) a
  have lb1 : Real.logb 10 S ≤ 27 := by
    rw [Real.logb_le_iff_le_rpow (by norm_num) Sp]
    refine S1.trans (le_of_eq ?_)
    norm_num
  have lb0 : -20 ≤ Real.logb 10 S := by
    rw [Real.le_logb_iff_rpow_le (by norm_num) Sp]
    refine le_trans (le_of_eq ?_) S0
    rw [Real.rpow_neg (by norm_num)]
    norm_num
  have lg := hf.log _ y0
  generalize Real.logb 10 S = B at *
  generalize Real.logb 10 s = b' at *
  generalize f.log10 s = l at *
  clear a b c S0 S1
  have q := abs_le.mp hlr
  have hb : |b'| ≤ 28 := by rw [abs_le]; constructor <;> norm_num at * <;> linarith
  have q2 := abs_le.mp (lg.trans (by norm_num at *; linarith : _ ≤ (3e-14 : ℝ)))
  have f1 := fl_near_lt (x := -2.5 * l) (n := 7) (by rw [abs_lt]; constructor <;> norm_num at * <;> linarith) (by norm_num)
  have q3 := abs_le.mp f1
  rw [abs_le]
  constructor <;> norm_num at * <;> linarith

/-- C207.  The order in which the stars are given matters no more than that. -/
theorem C207_perm {f : Fns} (hf : f.Ok) {m n : List ℝ} (hp : m.Perm n) (hn : m ≠ []) (hm : ∀ x ∈ m, |x| ≤ 50) (hl : m.length ≤ 2 ^ 20) :
    |SumN f m - SumN f n| ≤ 2 * (2e-13 + m.length * (6 / 2 ^ 53)) := by
  have a := abs_le.mp (C207_sumN hf hn hm hl)
  have b := abs_le.mp (C207_sumN hf (m := n) (fun h => hn (by rw [h] at hp; exact hp.eq_nil)) (fun x hx => hm x (hp.mem_iff.mpr hx)) (hp.length_eq ▸ hl))
  rw [C74_sumN_perm m n hp, hp.length_eq] at a
  rw [hp.length_eq, abs_le]
  constructor <;> linarith

/-- The hypotheses can be met: the exact functions are accurate enough, and `Sum` has a result. -/
theorem C207_example : ∃ f : Fns, f.Ok ∧ ∃ s, Sum f 1.96 2.89 s :=
  ⟨⟨fun x => (10 : ℝ) ^ x, Real.logb 10⟩, ⟨fun x _ => by
    rw [sub_self, abs_zero]
    have : (0 : ℝ) < 10 ^ x := Real.rpow_pos_of_pos (by norm_num) _
    positivity, fun x _ => by
    rw [sub_self, abs_zero]
    positivity⟩, _, Or.inl rfl⟩

end Verif.Props.Stellar64v
