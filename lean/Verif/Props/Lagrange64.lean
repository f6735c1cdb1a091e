import Mathlib.Tactic
import Verif.Model.Lagrange64
import Verif.Props.Fit64
import Verif.Props.Lagrange
/-!
Property C199: Lagrange's interpolation in double precision.
-/
namespace Verif.Props.Lagrange64v

open Verif.Go.F64 Verif.Model Verif.Model.Lagrange64 Verif.Model.Kepler64 Verif.Props.Fit64v

/-- Distinct floats have a difference that is not zero. -/
theorem fl_sub_ne {x y : ℝ} (hx : Rep x) (hy : Rep y) (h : x ≠ y) : fl (x - y) ≠ 0 := by
  obtain ⟨m, k, rfl, -, hk⟩ := hx
  obtain ⟨m', k', rfl, -, hk'⟩ := hy
  obtain ⟨a, rfl⟩ : ∃ a : ℕ, k = -1074 + a := ⟨(k + 1074).toNat, by omega⟩
  obtain ⟨b, rfl⟩ : ∃ b : ℕ, k' = -1074 + b := ⟨(k' + 1074).toNat, by omega⟩
  have e : (m : ℝ) * 2 ^ ((-1074 : ℤ) + a) - m' * 2 ^ ((-1074 : ℤ) + b) = ((m * 2 ^ a - m' * 2 ^ b : ℤ) : ℝ) * 2 ^ (-1074 : ℤ) := by
    push_cast
    rw [zpow_add₀ (by norm_num), zpow_add₀ (by norm_num), zpow_natCast, zpow_natCast]
    ring
  have hne : (m * 2 ^ a - m' * 2 ^ b : ℤ) ≠ 0 := by
    intro h0
    rw [h0, Int.cast_zero, zero_mul] at e
    exact h (sub_eq_zero.mp e)
  rw [e]
  generalize (m * 2 ^ a - m' * 2 ^ b : ℤ) = z at hne
  have hp : (0 : ℝ) < 2 ^ (-1074 : ℤ) := by positivity
  have r1 : Rep ((2 : ℝ) ^ (-1074 : ℤ)) := ⟨1, -1074, by simp, by norm_num, le_refl _⟩
  have r2 : Rep (-(2 : ℝ) ^ (-1074 : ℤ)) := ⟨-1, -1074, by simp, by norm_num, le_refl _⟩
  generalize (2 : ℝ) ^ (-1074 : ℤ) = t at hp r1 r2
  rcases lt_or_gt_of_ne hne with h0 | h0
  · have h1 : (z : ℝ) ≤ -1 := by exact_mod_cast (by omega : z ≤ -1)
    have := fl_mono (show (z : ℝ) * t ≤ -t by nlinarith)
    rw [fl_rep r2] at this
    linarith
  · have h1 : (1 : ℝ) ≤ z := by exact_mod_cast (by omega : 1 ≤ z)
    have := fl_mono (show t ≤ (z : ℝ) * t by nlinarith)
    rw [fl_rep r1] at this
    linarith

theorem fl_one' : fl 1 = 1 := by
  have := fl_rep (rep_int (n := 1) (by norm_num))
  simpa using this

/-- The product of the row of the argument is 1. -/
theorem fold_one {X : ℕ → ℝ} {k : ℕ} : ∀ L : List ℕ, (∀ j ∈ L, k ≠ j → fl (X k - X j) ≠ 0) → L.foldl (factor (X k) X k) 1 = 1
  | [], _ => rfl
  | j :: L, h => by
    have e : factor (X k) X k 1 j = 1 := by
      unfold factor
      split
      · next hj => rw [div_self (h j (by simp) hj), fl_one', one_mul, fl_one']
      · rfl
    rw [List.foldl_cons, e]
    exact fold_one L fun i hi => h i (by simp [hi])

theorem fold_zero {x : ℝ} {X : ℕ → ℝ} {i : ℕ} : ∀ L : List ℕ, L.foldl (factor x X i) 0 = 0
  | [] => rfl
  | j :: L => by
    have e : factor x X i 0 j = 0 := by
      unfold factor
      split
      · rw [zero_mul, fl_zero]
      · rfl
    rw [List.foldl_cons, e]
    exact fold_zero L

/-- The product of every other row is 0. -/
theorem fold_hit {X : ℕ → ℝ} {k i : ℕ} (hki : i ≠ k) : ∀ (L : List ℕ) (p : ℝ), k ∈ L → L.foldl (factor (X k) X i) p = 0
  | [], _, h => by simp at h
  | j :: L, p, h => by
    rw [List.foldl_cons]
    by_cases hj : k = j
    · subst hj
      have e : factor (X k) X i p k = 0 := by
        unfold factor
        rw [if_pos hki, sub_self, fl_zero, zero_div, fl_zero, mul_zero, fl_zero]
      rw [e]
      exact fold_zero L
    · exact fold_hit hki L _ (by simpa [hj] using h)

theorem mulAdd_zero {s y r : ℝ} (hs : Rep s) (h : MulAdd s y 0 r) : r = s := by
  rcases h with h | h <;> simpa [fl_zero, fl_rep hs] using h

theorem mulAdd_one {y r : ℝ} (hs : Rep y) (h : MulAdd 0 y 1 r) : r = y := by
  rcases h with h | h <;> simpa [fl_rep hs] using h

/-- A relative error. -/
theorem fl_delta {x : ℝ} (h : 1 / 2 ^ 1022 ≤ |x|) : ∃ δ, |δ| ≤ 1 / 2 ^ 53 ∧ fl x = x * (1 + δ) := by
  have hz : (2 : ℝ) ^ (-1022 : ℤ) = 1 / 2 ^ 1022 := by rw [zpow_neg, one_div]; norm_cast
  have hz' : (2 : ℝ) ^ (-53 : ℤ) = 1 / 2 ^ 53 := by rw [zpow_neg, one_div]; norm_cast
  have h1 := fl_rel (x := x) (by rwa [hz])
  rw [hz'] at h1
  have h0 : 0 < |x| := lt_of_lt_of_le (by positivity) h
  have h0' : x ≠ 0 := abs_pos.mp h0
  refine ⟨(fl x - x) / x, ?_, by field_simp; ring⟩
  rw [abs_div, div_le_iff₀ h0]
  exact h1

/-- Three roundings and one in the denominator. -/
theorem quot_delta {a b c d : ℝ} (ha : |a| ≤ 1 / 2 ^ 53) (hb : |b| ≤ 1 / 2 ^ 53) (hc : |c| ≤ 1 / 2 ^ 53) (hd : |d| ≤ 1 / 2 ^ 53) :
    |(1 + a) * (1 + c) * (1 + d) / (1 + b) - 1| ≤ 6 / 2 ^ 53 := by
  rw [abs_le] at ha hb hc hd
  have hb0 : 0 < 1 + b := by norm_num at hb ⊢; linarith
  have e : (1 + a) * (1 + c) * (1 + d) / (1 + b) - 1 = ((1 + a) * (1 + c) * (1 + d) - (1 + b)) / (1 + b) := by field_simp
  rw [e, abs_div, abs_of_pos hb0, div_le_iff₀ hb0, abs_le]
  have e1 : (1 + a) * (1 + c) * (1 + d) = 1 + a + c + d + a * c + a * d + c * d + a * c * d := by ring
  have p1 : |a * c| ≤ 1 / 2 ^ 53 * (1 / 2 ^ 53) := by rw [abs_mul]; exact mul_le_mul (abs_le.mpr ha) (abs_le.mpr hc) (abs_nonneg _) (by positivity)
  have p2 : |a * d| ≤ 1 / 2 ^ 53 * (1 / 2 ^ 53) := by rw [abs_mul]; exact mul_le_mul (abs_le.mpr ha) (abs_le.mpr hd) (abs_nonneg _) (by positivity)
  have p3 : |c * d| ≤ 1 / 2 ^ 53 * (1 / 2 ^ 53) := by rw [abs_mul]; exact mul_le_mul (abs_le.mpr hc) (abs_le.mpr hd) (abs_nonneg _) (by positivity)
  have p4 : |a * c * d| ≤ 1 / 2 ^ 53 * (1 / 2 ^ 53) * (1 / 2 ^ 53) := by rw [abs_mul]; exact mul_le_mul p1 (abs_le.mpr hd) (abs_nonneg _) (by positivity)
  rw [e1]
  rw [abs_le] at p1 p2 p3 p4
  generalize a * c * d = x4 at *
  generalize a * c = x1 at *
  generalize a * d = x2 at *
  generalize c * d = x3 at *
  norm_num at *
  constructor <;> linarith [ha.1, hb.1]

theorem grow_le {m : ℕ} (hm : m ≤ 12) : ((1 : ℝ) + 6 / 2 ^ 53) ^ m ≤ 3 / 2 := by
  refine (pow_le_pow_right₀ (by norm_num) hm).trans ?_
  norm_num

/-- One factor. -/
theorem factor_near {p p' a b : ℝ} {m : ℕ} (hm : m ≤ 10) (hp : |p' - p| ≤ ((1 + 6 / 2 ^ 53) ^ m - 1) * |p|) (hp0 : p = 0 ∨ (1 / 2 ^ 81) ^ m ≤ |p|)
    (ha : a = 0 ∨ 1 / 2 ^ 40 ≤ |a|) (hb : 1 / 2 ^ 40 ≤ |b|) (hb' : |b| ≤ 2 ^ 41) :
    |fl (p' * fl (fl a / fl b)) - p * (a / b)| ≤ ((1 + 6 / 2 ^ 53) ^ (m + 1) - 1) * |p * (a / b)| ∧
      (p * (a / b) = 0 ∨ (1 / 2 ^ 81) ^ (m + 1) ≤ |p * (a / b)|) := by
  rcases ha with rfl | ha
  · simp [fl_zero]
  rcases hp0 with rfl | hp0
  · simp only [sub_zero, abs_zero, mul_zero, abs_nonpos_iff] at hp
    simp [hp, fl_zero]
  have tiny : (1 : ℝ) / 2 ^ 1022 ≤ 1 / 2 ^ 40 := one_div_le_one_div_of_le (by positivity) (pow_le_pow_right₀ (by norm_num) (by norm_num))
  have hb0 : 0 < |b| := lt_of_lt_of_le (by positivity) hb
  have ha0 : 0 < |a| := lt_of_lt_of_le (by positivity) ha
  have hquo : 1 / 2 ^ 81 ≤ |a / b| := by
    rw [abs_div, le_div_iff₀ hb0]
    calc 1 / 2 ^ 81 * |b| ≤ 1 / 2 ^ 81 * 2 ^ 41 := by gcongr
      _ ≤ 1 / 2 ^ 40 := by norm_num
      _ ≤ _ := ha
  have hlow : (1 / 2 ^ 81) ^ (m + 1) ≤ |p * (a / b)| := by
    rw [abs_mul, pow_succ]
    exact mul_le_mul hp0 hquo (by positivity) (abs_nonneg _)
  refine ⟨?_, Or.inr hlow⟩
  have hpow : ((1 : ℝ) / 2 ^ 81) ^ 11 ≤ (1 / 2 ^ 81) ^ (m + 1) := pow_le_pow_of_le_one (by positivity) (by norm_num) (by omega)
  have hfin : (1 : ℝ) / 2 ^ 1022 ≤ (1 / 2 ^ 81) ^ 11 / 4 := by
    rw [div_pow, one_pow, ← pow_mul, div_div, show (4 : ℝ) = 2 ^ 2 by norm_num, ← pow_add]
    exact one_div_le_one_div_of_le (by positivity) (pow_le_pow_right₀ (by norm_num) (by norm_num))
  have hG := grow_le (show m ≤ 12 by omega)
  have hpp : 0 < |p| := lt_of_lt_of_le (by positivity) hp0
  have hpne : p ≠ 0 := abs_pos.mp hpp
  have hane : a ≠ 0 := abs_pos.mp ha0
  have hbne : b ≠ 0 := abs_pos.mp hb0
  obtain ⟨δ1, d1, e1⟩ := fl_delta (tiny.trans ha)
  obtain ⟨δ2, d2, e2⟩ := fl_delta (tiny.trans hb)
  have d1' := abs_le.mp d1
  have d2' := abs_le.mp d2
  have small : (1 : ℝ) / 2 ^ 53 ≤ 1 / 100 := by norm_num
  have n2 : 1 + δ2 ≠ 0 := by intro h; linarith [d2'.1]
  have eq : fl a / fl b = a / b * ((1 + δ1) / (1 + δ2)) := by rw [e1, e2]; field_simp
  have hr : 9 / 10 ≤ (1 + δ1) / (1 + δ2) := by
    rw [le_div_iff₀ (by linarith [d2'.1])]
    linarith [d1'.1, d2'.2]
  have hq2 : 1 / 2 ^ 81 * (9 / 10) ≤ |fl a / fl b| := by
    rw [eq, abs_mul, abs_of_pos (lt_of_lt_of_le (by norm_num) hr)]
    exact mul_le_mul hquo hr (by norm_num) (abs_nonneg _)
  obtain ⟨δ3, d3, e3⟩ := fl_delta (x := fl a / fl b) (le_trans (by
    refine le_trans (one_div_le_one_div_of_le (by positivity) (pow_le_pow_right₀ (by norm_num) (show 90 ≤ 1022 by norm_num))) ?_
    norm_num) hq2)
  have d3' := abs_le.mp d3
  set θ := (p' - p) / p with hθ
  have ep : p' = p * (1 + θ) := by rw [hθ]; field_simp; ring
  have hθ' : |θ| ≤ (1 + 6 / 2 ^ 53) ^ m - 1 := by rw [hθ, abs_div, div_le_iff₀ hpp]; exact hp
  have hθ2 := abs_le.mp hθ'
  have ex : p' * fl (fl a / fl b) = p * (a / b) * ((1 + θ) * ((1 + δ1) / (1 + δ2)) * (1 + δ3)) := by rw [e3, eq, ep]; ring
  have hx : (1 : ℝ) / 2 ^ 1022 ≤ |p' * fl (fl a / fl b)| := by
    rw [ex, abs_mul]
    have h1 : 1 / 4 ≤ (1 + θ) * ((1 + δ1) / (1 + δ2)) * (1 + δ3) := by
      have t1 : 1 / 2 ≤ 1 + θ := by linarith [hθ2.1]
      have t2 : 1 / 2 * (9 / 10) ≤ (1 + θ) * ((1 + δ1) / (1 + δ2)) := mul_le_mul t1 hr (by norm_num) (by linarith)
      have t3 : 9 / 10 ≤ 1 + δ3 := by linarith [d3'.1]
      calc (1 : ℝ) / 4 ≤ 1 / 2 * (9 / 10) * (9 / 10) := by norm_num
        _ ≤ _ := mul_le_mul t2 t3 (by norm_num) (le_trans (by norm_num) t2)
    rw [abs_of_pos (lt_of_lt_of_le (by norm_num) h1)]
    calc (1 : ℝ) / 2 ^ 1022 ≤ (1 / 2 ^ 81) ^ 11 / 4 := hfin
      _ ≤ (1 / 2 ^ 81) ^ (m + 1) * (1 / 4) := by rw [div_eq_mul_one_div]; gcongr
      _ ≤ _ := mul_le_mul hlow h1 (by norm_num) (abs_nonneg _)
  obtain ⟨δ4, d4, e4⟩ := fl_delta hx
  have hK := quot_delta d1 d2 d3 d4
  set K := (1 + δ1) * (1 + δ3) * (1 + δ4) / (1 + δ2) with hKd
  have ef : fl (p' * fl (fl a / fl b)) - p * (a / b) = p * (a / b) * ((1 + θ) * K - 1) := by rw [e4, ex, hKd]; ring
  rw [ef, abs_mul, mul_comm]
  refine mul_le_mul_of_nonneg_right ?_ (abs_nonneg _)
  have e5 : (1 + θ) * K - 1 = θ + θ * (K - 1) + (K - 1) := by ring
  have h6 : |θ * (K - 1)| ≤ ((1 + 6 / 2 ^ 53) ^ m - 1) * (6 / 2 ^ 53) := by
    rw [abs_mul]
    exact mul_le_mul hθ' hK (abs_nonneg _) (le_trans (abs_nonneg _) hθ')
  rw [e5, pow_succ]
  refine ((abs_add_le _ _).trans (add_le_add_left (abs_add_le _ _) _)).trans ?_
  linarith

/-- The exact fold. -/
noncomputable def efold (x : ℝ) (X : ℕ → ℝ) (i : ℕ) (L : List ℕ) (p : ℝ) : ℝ := L.foldl (fun p j => if i ≠ j then p * ((x - X j) / (X i - X j)) else p) p

theorem fold_near {x : ℝ} {X : ℕ → ℝ} {i n : ℕ} (hs : ∀ j < n, i ≠ j → 1 / 2 ^ 40 ≤ |X i - X j| ∧ |X i - X j| ≤ 2 ^ 41)
    (hx : ∀ j < n, x = X j ∨ 1 / 2 ^ 40 ≤ |x - X j|) : ∀ (L : List ℕ) (m : ℕ) (p p' : ℝ), (∀ j ∈ L, j < n) → m + L.length ≤ 11 →
    |p' - p| ≤ ((1 + 6 / 2 ^ 53) ^ m - 1) * |p| → (p = 0 ∨ (1 / 2 ^ 81) ^ m ≤ |p|) →
    |L.foldl (factor x X i) p' - efold x X i L p| ≤ ((1 + 6 / 2 ^ 53) ^ (m + L.length) - 1) * |efold x X i L p|
  | [], m, p, p', _, _, h, _ => by simpa [efold] using h
  | j :: L, m, p, p', hL, hl, h, h0 => by
    rw [List.length_cons] at hl
    have hj := hL j (by simp)
    have key : |factor x X i p' j - (if i ≠ j then p * ((x - X j) / (X i - X j)) else p)| ≤
        ((1 + 6 / 2 ^ 53) ^ (m + 1) - 1) * |(if i ≠ j then p * ((x - X j) / (X i - X j)) else p)| ∧
        ((if i ≠ j then p * ((x - X j) / (X i - X j)) else p) = 0 ∨ (1 / 2 ^ 81) ^ (m + 1) ≤ |(if i ≠ j then p * ((x - X j) / (X i - X j)) else p)|) := by
      unfold factor
      by_cases hij : i ≠ j
      · simp only [if_pos hij]
        obtain ⟨s1, s2⟩ := hs j hj hij
        refine factor_near (by omega) h h0 ?_ s1 s2
        rcases hx j hj with h1 | h1
        · exact Or.inl (sub_eq_zero.mpr h1)
        · exact Or.inr h1
      · simp only [if_neg hij]
        refine ⟨h.trans ?_, h0.imp id fun h1 => le_trans (pow_le_pow_of_le_one (by positivity) (by norm_num) (by omega)) h1⟩
        gcongr
        · norm_num
        · omega
    have := fold_near hs hx L (m + 1) _ _ (fun k hk => hL k (by simp [hk])) (by omega) key.1 key.2
    rw [List.foldl_cons, List.length_cons]
    rw [show m + (L.length + 1) = m + 1 + L.length by ring]
    exact this

/-- One round of the outer loop. -/
theorem row_near {s' S A y p' p s G H E : ℝ} (hG : 1 ≤ G) (hs : |s' - S| ≤ (G * H - 1) * A + E) (hSA : |S| ≤ A) (hp : |p' - p| ≤ (G - 1) * |p|)
    (hH : 1 ≤ H) (hE' : E ≤ 1 / 2 ^ 450) (h : MulAdd s' y p' s) :
    |s - (S + y * p)| ≤ (G * (H * (1 + 3 / 2 ^ 53)) - 1) * (A + |y * p|) + (E + 1 / 2 ^ 480) := by
  have hA : 0 ≤ A := (abs_nonneg _).trans hSA
  have h1 : |y * p' - y * p| ≤ (G - 1) * |y * p| := by
    rw [← mul_sub, abs_mul, abs_mul, mul_left_comm]
    exact mul_le_mul_of_nonneg_left hp (abs_nonneg _)
  have h2 : |y * p'| ≤ G * |y * p| := by
    have := abs_sub_abs_le_abs_sub (y * p') (y * p)
    linarith
  have h3 : |s'| ≤ G * H * A + E := by
    have := abs_sub_abs_le_abs_sub s' S
    linarith
  have eta : (0 : ℝ) ≤ 1 / 2 ^ 500 := by positivity
  have uE : 1 / 2 ^ 53 * (1 / 2 ^ 450) + 4 * (1 / 2 ^ 500) ≤ (1 : ℝ) / 2 ^ 480 := by
    have e1 : (1 : ℝ) / 2 ^ 53 * (1 / 2 ^ 450) = 1 / 2 ^ 480 * (1 / 2 ^ 23) := by
      rw [one_div_mul_one_div, one_div_mul_one_div, ← pow_add, ← pow_add]
    have e2 : (1 : ℝ) / 2 ^ 500 = 1 / 2 ^ 480 * (1 / 2 ^ 20) := by
      rw [one_div_mul_one_div, ← pow_add]
    rw [e1, e2]
    have : (0 : ℝ) < 1 / 2 ^ 480 := by positivity
    generalize (1 : ℝ) / 2 ^ 480 = k at *
    norm_num
    linarith
  obtain ⟨t, ht, hst⟩ : ∃ t, |t - y * p'| ≤ |y * p'| / 2 ^ 53 + 1 / 2 ^ 500 ∧ s = fl (s' + t) := by
    rcases h with h | h
    · exact ⟨_, fl_tiny _, h⟩
    · exact ⟨_, by rw [sub_self, abs_zero]; positivity, h⟩
  have h4 := fl_tiny (s' + t)
  rw [← hst] at h4
  have h5 := abs_add_le s' t
  have h6 := abs_sub_abs_le_abs_sub t (y * p')
  have e : s - (S + y * p) = (s - (s' + t)) + (s' - S) + (t - y * p') + (y * p' - y * p) := by ring
  have h7 : |s - (S + y * p)| ≤ |s - (s' + t)| + |s' - S| + |t - y * p'| + |y * p' - y * p| := by
    rw [e]
    refine (abs_add_le _ _).trans (add_le_add_left ?_ _)
    refine (abs_add_le _ _).trans (add_le_add_left ?_ _)
    exact abs_add_le _ _
  have hgh : 1 ≤ G * H := one_le_mul_of_one_le_of_one_le hG hH
  have hgh' : G ≤ G * H := le_mul_of_one_le_right (by linarith) hH
  have q0 := abs_nonneg (y * p)
  have m1 : G * |y * p| ≤ G * H * |y * p| := mul_le_mul_of_nonneg_right hgh' q0
  have m2 : 0 ≤ G * H * A := mul_nonneg (by linarith) hA
  have m3 : 0 ≤ G * |y * p| := mul_nonneg (by linarith) q0
  have e8 : (G * (H * (1 + 3 / 2 ^ 53)) - 1) * (A + |y * p|) =
      G * H * A + G * H * |y * p| + 3 / 2 ^ 53 * (G * H * A) + 3 / 2 ^ 53 * (G * H * |y * p|) - A - |y * p| := by ring
  rw [e8]
  have e9 : (G * H - 1) * A = G * H * A - A := by ring
  have e10 : (G - 1) * |y * p| = G * |y * p| - |y * p| := by ring
  rw [e9] at hs
  rw [e10] at h1
  generalize G * H * A = P at *
  generalize G * H * |y * p| = Q at *
  generalize G * |y * p| = R at *
  generalize |y * p'| = W at *
  generalize |y * p' - y * p| = V at *
  generalize |s - (S + y * p)| = Z at *
  generalize |s - (s' + t)| = Z1 at *
  generalize |s' - S| = Z2 at *
  generalize |t - y * p'| = Z3 at *
  generalize |s' + t| = Z4 at *
  generalize |y * p| = Z5 at *
  generalize (1 : ℝ) / 2 ^ 480 = k at *
  generalize (1 : ℝ) / 2 ^ 500 = η at *
  generalize (1 : ℝ) / 2 ^ 450 = μ at *
  norm_num at *
  linarith

/-- The exact sum of the first k rows and the sum of the absolute values. -/
noncomputable def esum (x : ℝ) (n : ℕ) (X Y : ℕ → ℝ) (k : ℕ) : ℝ := ∑ i ∈ Finset.range k, Y i * efold x X i (List.range n) 1
noncomputable def asum (x : ℝ) (n : ℕ) (X Y : ℕ → ℝ) (k : ℕ) : ℝ := ∑ i ∈ Finset.range k, |Y i * efold x X i (List.range n) 1|

theorem rows_near {x : ℝ} {X Y : ℕ → ℝ} {n : ℕ} (hn : n ≤ 11) (hX : ∀ i < n, |X i| ≤ 2 ^ 40)
    (hs : ∀ i < n, ∀ j < n, i ≠ j → 1 / 2 ^ 40 ≤ |X i - X j|) (hx : ∀ j < n, x = X j ∨ 1 / 2 ^ 40 ≤ |x - X j|) :
    ∀ k ≤ n, ∀ s, Rows x n X Y k s →
      |s - esum x n X Y k| ≤ ((1 + 6 / 2 ^ 53) ^ n * (1 + 3 / 2 ^ 53) ^ k - 1) * asum x n X Y k + k * (1 / 2 ^ 480)
  | 0, _, s, h => by
    have h : s = 0 := h
    simp [h, esum, asum]
  | k + 1, hk, s, h => by
    obtain ⟨s', h1, h2⟩ := h
    have ih := rows_near hn hX hs hx k (by omega) s' h1
    have hp := fold_near (x := x) (X := X) (i := k) (n := n) (fun j hj hij => ⟨hs k (by omega) j hj hij, by
        refine (abs_sub _ _).trans ?_
        have := hX k (by omega)
        have := hX j hj
        rw [show (2 : ℝ) ^ 41 = 2 ^ 40 + 2 ^ 40 by norm_num]
        linarith⟩) hx (List.range n) 0 1 1 (by simp) (by simpa using hn) (by simp) (Or.inr (by simp))
    rw [zero_add, List.length_range] at hp
    have hsum : |esum x n X Y k| ≤ asum x n X Y k := Finset.abs_sum_le_sum_abs _ _
    have hE : (k : ℝ) * (1 / 2 ^ 480) ≤ 1 / 2 ^ 450 := by
      have hk' : (k : ℝ) ≤ 16 := by exact_mod_cast (by omega : k ≤ 16)
      calc (k : ℝ) * (1 / 2 ^ 480) ≤ 2 ^ 4 * (1 / 2 ^ 480) := by gcongr; linarith
        _ = 1 / 2 ^ 476 := by rw [show (480 : ℕ) = 4 + 476 by norm_num, pow_add]; field_simp
        _ ≤ _ := one_div_le_one_div_of_le (by positivity) (pow_le_pow_right₀ (by norm_num) (by norm_num))
    have := row_near (one_le_pow₀ (by norm_num)) ih hsum hp (one_le_pow₀ (by norm_num)) hE h2
    rw [← pow_succ] at this
    unfold esum asum at this ⊢
    rw [Finset.sum_range_succ, Finset.sum_range_succ]
    refine this.trans (le_of_eq ?_)
    push_cast
    ring

theorem growth {n : ℕ} (hn : n ≤ 11) : ((1 : ℝ) + 6 / 2 ^ 53) ^ n * (1 + 3 / 2 ^ 53) ^ n - 1 ≤ n * 10 / 2 ^ 53 := by
  interval_cases n <;> norm_num

theorem lagrange_eq (x : ℝ) (n : ℕ) (X Y : ℕ → ℝ) : esum x n X Y n = Interp.Lagrange x n X Y := by
  unfold Interp.Lagrange
  rw [Verif.Lemmas.foldl_add_range (fun i => Y i * (List.range n).foldl (fun prod j =>
      if i ≠ j then prod * ((x - X j) / (X i - X j)) else prod) 1), zero_add]
  rfl

theorem asum_eq (x : ℝ) (n : ℕ) (X Y : ℕ → ℝ) :
    asum x n X Y n = ∑ i ∈ Finset.range n, |Y i * ∏ j ∈ (Finset.range n).erase i, (x - X j) / (X i - X j)| := by
  unfold asum efold
  refine Finset.sum_congr rfl fun i _ => ?_
  rw [Verif.Lemmas.foldl_mul_range_ne (fun j => (x - X j) / (X i - X j))]

/-- There is a run. -/
theorem rows_exists (x : ℝ) (n : ℕ) (X Y : ℕ → ℝ) : ∀ k, ∃ s, Rows x n X Y k s
  | 0 => ⟨0, rfl⟩
  | k + 1 => by
    obtain ⟨s, h⟩ := rows_exists x n X Y k
    exact ⟨_, s, h, Or.inl rfl⟩

theorem rows_rep {x : ℝ} {n : ℕ} {X Y : ℕ → ℝ} : ∀ {k s}, Rows x n X Y k s → Rep s
  | 0, s, h => by
    have h : s = 0 := h
    rw [h, ← fl_zero]
    exact rep_fl _
  | k + 1, s, ⟨s', _, h⟩ => by rcases h with h | h <;> rw [h] <;> exact rep_fl _

theorem rows_at {n : ℕ} {X Y : ℕ → ℝ} {k : ℕ} (hk : k < n) (hX : ∀ i < n, Rep (X i)) (hY : Rep (Y k)) (hd : Distinct n X) :
    ∀ m ≤ n, ∀ s, Rows (X k) n X Y m s → s = if k < m then Y k else 0
  | 0, _, s, h => by
    have h : s = 0 := h
    simp [h]
  | m + 1, hm, s, ⟨s', h1, h2⟩ => by
    have ih := rows_at hk hX hY hd m (by omega) s' h1
    by_cases hkm : m = k
    · subst hkm
      rw [if_neg (lt_irrefl _)] at ih
      have e : prod (X m) n X m = 1 := fold_one _ fun j hj hmj =>
        fl_sub_ne (hX m hk) (hX j (by simpa using hj)) fun h => hmj (hd m j hk (by simpa using hj) h)
      rw [e, ih] at h2
      rw [if_pos (by omega)]
      exact mulAdd_one hY h2
    · have e : prod (X k) n X m = 0 := fold_hit hkm _ _ (by simpa using hk)
      rw [e] at h2
      rw [mulAdd_zero (rows_rep h1) h2, ih]
      by_cases h3 : k < m
      · rw [if_pos h3, if_pos (by omega)]
      · rw [if_neg h3, if_neg (by omega)]

end Verif.Props.Lagrange64v

namespace Verif.Props

open Verif.Go.F64 Verif.Model Lagrange64v

/-- C199: at an abscissa of the table Lagrange in double precision returns exactly the tabular value, for tables of any length. -/
theorem C199_through {n : ℕ} {X Y : ℕ → ℝ} (hX : ∀ i < n, Rep (X i)) (hd : Distinct n X) {k : ℕ} (hk : k < n) (hY : Rep (Y k)) {y : ℝ}
    (h : Lagrange64.Lagrange (X k) n X Y y) : y = Y k := by
  have := rows_at hk hX hY hd n le_rfl y h
  rwa [if_pos hk] at this

/-- C199: elsewhere, for at most eleven abscissae up to 2⁴⁰ with differences from each other and from the argument of 2⁻⁴⁰ or more, the value differs from that of
the polynomial P through the points by at most 10n/2⁵³ times the sum of the absolute values of the terms of Lagrange's formula. -/
theorem C199_error {n : ℕ} (hn : n ≤ 11) {X Y : ℕ → ℝ} (hX : ∀ i < n, |X i| ≤ 2 ^ 40) (hs : ∀ i < n, ∀ j < n, i ≠ j → 1 / 2 ^ 40 ≤ |X i - X j|)
    {x : ℝ} (hx : ∀ j < n, x = X j ∨ 1 / 2 ^ 40 ≤ |x - X j|) {y : ℝ} (h : Lagrange64.Lagrange x n X Y y)
    (P : Polynomial ℝ) (hP : P.degree < n) (hy : ∀ i < n, Y i = P.eval (X i)) :
    |y - P.eval x| ≤ n * 10 / 2 ^ 53 * ∑ i ∈ Finset.range n, |Y i * ∏ j ∈ (Finset.range n).erase i, (x - X j) / (X i - X j)| + 1 / 2 ^ 450 := by
  have h1 := rows_near hn hX hs hx n le_rfl y h
  have hd : Distinct n X := by
    intro i j hi hj hij
    by_contra hne
    have := hs i hi j hj hne
    rw [hij, sub_self, abs_zero] at this
    exact absurd this (not_le.mpr (by positivity))
  rw [lagrange_eq, C19_reproduces n X Y hd P hP hy x] at h1
  rw [← asum_eq]
  have h0 : 0 ≤ asum x n X Y n := Finset.sum_nonneg fun _ _ => abs_nonneg _
  have h2 := mul_le_mul_of_nonneg_right (growth hn) h0
  have hE : (n : ℝ) * (1 / 2 ^ 480) ≤ 1 / 2 ^ 450 := by
    have hk' : (n : ℝ) ≤ 16 := by exact_mod_cast (by omega : n ≤ 16)
    calc (n : ℝ) * (1 / 2 ^ 480) ≤ 2 ^ 4 * (1 / 2 ^ 480) := by gcongr; linarith
      _ = 1 / 2 ^ 476 := by rw [show (480 : ℕ) = 4 + 476 by norm_num, pow_add]; field_simp
      _ ≤ _ := one_div_le_one_div_of_le (by positivity) (pow_le_pow_right₀ (by norm_num) (by norm_num))
  linarith

/-- C199 for the table 0, 1, 2 of the squares: at 1 the value is 1, at 1/2 it is 1/4 to 10⁻¹⁴. -/
theorem C199_example : (∃ y, Lagrange64.Lagrange 1 3 (fun i => i) (fun i => i ^ 2) y ∧ y = 1) ∧
    ∃ y, Lagrange64.Lagrange (1 / 2) 3 (fun i => i) (fun i => i ^ 2) y ∧ |y - 1 / 4| ≤ 1e-14 := by
  have hd : Distinct 3 (fun i => (i : ℝ)) := fun i j _ _ h => Nat.cast_injective (R := ℝ) h
  constructor
  · obtain ⟨y, h⟩ := rows_exists 1 3 (fun i => i) (fun i => i ^ 2) 3
    refine ⟨y, h, ?_⟩
    have := C199_through (n := 3) (X := fun i => i) (Y := fun i => i ^ 2) (fun i hi => by
      have := rep_int (n := i) (by rw [abs_of_nonneg (by positivity)]; exact_mod_cast (by omega))
      simpa using this) hd (k := 1) (by norm_num) (by simpa using rep_int (n := 1) (by norm_num)) (y := y) (by simpa [Lagrange64.Lagrange] using h)
    simpa using this
  · obtain ⟨y, h⟩ := rows_exists (1 / 2) 3 (fun i => i) (fun i => i ^ 2) 3
    refine ⟨y, h, ?_⟩
    have := C199_error (n := 3) (by norm_num) (X := fun i => i) (Y := fun i => i ^ 2) (fun i hi => by interval_cases i <;> norm_num)
      (fun i hi j hj hij => by interval_cases i <;> interval_cases j <;> first | exact absurd rfl hij | norm_num)
      (x := 1 / 2) (fun j hj => Or.inr (by interval_cases j <;> norm_num)) h (Polynomial.X ^ 2) (by simp; norm_num) (by simp)
    simp only [Finset.sum_range_succ, Finset.sum_range_zero, Polynomial.eval_pow, Polynomial.eval_X] at this
    rw [show (Finset.range 3).erase 0 = {1, 2} by decide, show (Finset.range 3).erase 1 = {0, 2} by decide,
      show (Finset.range 3).erase 2 = {0, 1} by decide] at this
    have e : (1 : ℝ) / 2 ^ 450 ≤ 1 / 2 ^ 60 := one_div_le_one_div_of_le (by positivity) (pow_le_pow_right₀ (by norm_num) (by norm_num))
    generalize (1 : ℝ) / 2 ^ 450 = k at *
    rw [Finset.prod_pair (by norm_num), Finset.prod_pair (by norm_num), Finset.prod_pair (by norm_num)] at this
    norm_num at this e ⊢
    linarith

end Verif.Props
