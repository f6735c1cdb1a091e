import Mathlib.Tactic
import Verif.Props.Length64
import Verif.Props.Parabolic64
import Verif.Props.Elliptic
import Mathlib.Analysis.PSeries
/-!
Property C203: the error of `Length4` in double precision.
-/
namespace Verif.Props.Length64v

open Verif.Go.F64 Verif.Model.Kepler64 Verif.Model.Length64 Verif.Props.Fit64v Verif.Props.Parabolic64v

/-! ### The series -/

theorem gk_cube (i : ℕ) : gk (i + 1) ≤ 1 / (4 * ((i : ℝ) + 1) ^ 3) := by
  induction i with
  | zero => rw [gk_vals.2.1]; norm_num
  | succ i ih =>
    rw [gk_succ]
    refine (mul_le_mul_of_nonneg_right ih (sq_nonneg _)).trans ?_
    push_cast
    have hi : (0 : ℝ) ≤ i := by positivity
    rw [div_pow, div_mul_div_comm, div_le_div_iff₀ (by positivity) (by positivity)]
    have : (2 * ((i : ℝ) + 1) - 1) ^ 2 * ((i : ℝ) + 1 + 1) ≤ 4 * ((i : ℝ) + 1) ^ 3 := by nlinarith [mul_nonneg hi hi]
    have h2 := mul_le_mul_of_nonneg_right this (by positivity : 0 ≤ 4 * ((i : ℝ) + 1 + 1) ^ 2)
    calc 1 * (2 * ((i : ℝ) + 1) - 1) ^ 2 * (4 * ((i : ℝ) + 1 + 1) ^ 3) = (2 * ((i : ℝ) + 1) - 1) ^ 2 * ((i : ℝ) + 1 + 1) * (4 * ((i : ℝ) + 1 + 1) ^ 2) := by ring
      _ ≤ _ := h2
      _ = _ := by ring

theorem gk_sq_mono (j : ℕ) : gk (j + 1) * ((j : ℝ) + 1) ^ 2 ≤ gk j * (j : ℝ) ^ 2 ∨ j = 0 := by
  rcases Nat.eq_zero_or_pos j with h | h
  · exact Or.inr h
  left
  have hj : (1 : ℝ) ≤ j := by exact_mod_cast h
  rw [gk_succ, mul_assoc]
  refine mul_le_mul_of_nonneg_left ?_ (gk_nonneg j)
  rw [show 2 * (j : ℝ) + 2 = 2 * (j + 1) by ring, div_pow, mul_pow, div_mul_eq_mul_div, div_le_iff₀ (by positivity)]
  have : (2 * (j : ℝ) - 1) ^ 2 ≤ 4 * (j : ℝ) ^ 2 := by nlinarith
  nlinarith [sq_nonneg ((j : ℝ) + 1)]

/-- The terms after the K-th. -/
theorem tail_le {h S : ℝ} (h0 : 0 ≤ h) (h1 : h ≤ 1) (hS : HasSum (fun n => gk n * h ^ n) S) (K : ℕ) :
    (∑ i ∈ Finset.range (K + 2), gk i * h ^ i) ≤ S ∧
    S ≤ (∑ i ∈ Finset.range (K + 2), gk i * h ^ i) + gk (K + 1) * h ^ (K + 1) * ((K : ℝ) + 1) := by
  have hnn : ∀ n, 0 ≤ gk n * h ^ n := fun n => mul_nonneg (gk_nonneg n) (pow_nonneg h0 n)
  refine ⟨sum_le_hasSum _ (fun n _ => hnn n) hS, ?_⟩
  have hterm : ∀ M : ℕ, gk (K + 1 + M) * h ^ (K + 1 + M) * ((K : ℝ) + 1 + M) ^ 2 ≤ gk (K + 1) * h ^ (K + 1) * ((K : ℝ) + 1) ^ 2 := by
    intro M
    induction M with
    | zero => simp
    | succ M ih =>
      refine le_trans ?_ ih
      have g := (gk_sq_mono (K + 1 + M)).resolve_right (by omega)
      have p : h ^ (K + 1 + M + 1) ≤ h ^ (K + 1 + M) := pow_le_pow_of_le_one h0 h1 (by omega)
      have q0 : 0 ≤ h ^ (K + 1 + M + 1) := pow_nonneg h0 _
      push_cast at g ⊢
      rw [show K + 1 + (M + 1) = K + 1 + M + 1 by omega]
      calc gk (K + 1 + M + 1) * h ^ (K + 1 + M + 1) * ((K : ℝ) + 1 + (M + 1)) ^ 2 = gk (K + 1 + M + 1) * ((K : ℝ) + 1 + M + 1) ^ 2 * h ^ (K + 1 + M + 1) := by ring
        _ ≤ gk (K + 1 + M) * ((K : ℝ) + 1 + M) ^ 2 * h ^ (K + 1 + M) := mul_le_mul g p q0 (mul_nonneg (gk_nonneg _) (sq_nonneg _))
        _ = _ := by ring
  set F := gk (K + 1) * h ^ (K + 1) with hF
  have hF0 : 0 ≤ F := hnn _
  have hpart : ∀ M : ℕ, ∑ i ∈ Finset.range (K + 2 + M), gk i * h ^ i ≤
      (∑ i ∈ Finset.range (K + 2), gk i * h ^ i) + F * ((K : ℝ) + 1) ^ 2 * (1 / ((K : ℝ) + 1) - 1 / ((K : ℝ) + 1 + M)) := by
    intro M
    induction M with
    | zero => simp
    | succ M ih =>
      rw [show K + 2 + (M + 1) = K + 2 + M + 1 by omega, Finset.sum_range_succ]
      have t := hterm (M + 1)
      rw [show K + 1 + (M + 1) = K + 2 + M by omega] at t
      push_cast at t ⊢
      have c0 : (0 : ℝ) < (K : ℝ) + 1 + M := by positivity
      have c1 : (0 : ℝ) < (K : ℝ) + 1 + (M + 1) := by positivity
      have t2 : gk (K + 2 + M) * h ^ (K + 2 + M) ≤ F * ((K : ℝ) + 1) ^ 2 * (1 / ((K : ℝ) + 1 + M) - 1 / ((K : ℝ) + 1 + (M + 1))) := by
        rw [div_sub_div _ _ c0.ne' c1.ne', mul_div_assoc', le_div_iff₀ (by positivity)]
        have e : gk (K + 2 + M) * h ^ (K + 2 + M) * (((K : ℝ) + 1 + M) * ((K : ℝ) + 1 + (M + 1))) ≤ gk (K + 2 + M) * h ^ (K + 2 + M) * ((K : ℝ) + 1 + (M + 1)) ^ 2 := by
          refine mul_le_mul_of_nonneg_left ?_ (hnn _)
          nlinarith
        linarith
      rw [show F * ((K : ℝ) + 1) ^ 2 * (1 / ((K : ℝ) + 1) - 1 / ((K : ℝ) + 1 + (M + 1))) =
        F * ((K : ℝ) + 1) ^ 2 * (1 / ((K : ℝ) + 1) - 1 / ((K : ℝ) + 1 + M)) + F * ((K : ℝ) + 1) ^ 2 * (1 / ((K : ℝ) + 1 + M) - 1 / ((K : ℝ) + 1 + (M + 1))) by ring]
      linarith
  refine le_of_tendsto hS.tendsto_sum_nat (Filter.eventually_atTop.2 ⟨K + 2, fun N hN => ?_⟩)
  have := hpart (N - (K + 2))
  rw [show K + 2 + (N - (K + 2)) = N by omega] at this
  refine this.trans ?_
  have e : F * ((K : ℝ) + 1) ^ 2 * (1 / ((K : ℝ) + 1)) = F * ((K : ℝ) + 1) := by field_simp
  have p : 0 ≤ F * ((K : ℝ) + 1) ^ 2 * (1 / ((K : ℝ) + 1 + ((N - (K + 2) : ℕ) : ℝ))) := by positivity
  rw [mul_sub, e]
  linarith

theorem pow_lip {h g : ℝ} (h0 : 0 ≤ h) (h1 : h ≤ 1) (g0 : 0 ≤ g) (g1 : g ≤ 1) (i : ℕ) : |h ^ i - g ^ i| ≤ i * |h - g| := by
  induction i with
  | zero => simp
  | succ i ih =>
    rw [show h ^ (i + 1) - g ^ (i + 1) = h * (h ^ i - g ^ i) + g ^ i * (h - g) by ring]
    refine (abs_add_le _ _).trans ?_
    rw [abs_mul, abs_mul, abs_of_nonneg h0, abs_of_nonneg (pow_nonneg g0 i)]
    have a : h * |h ^ i - g ^ i| ≤ 1 * |h ^ i - g ^ i| := mul_le_mul_of_nonneg_right h1 (abs_nonneg _)
    have b : g ^ i * |h - g| ≤ 1 * |h - g| := mul_le_mul_of_nonneg_right (pow_le_one₀ g0 g1) (abs_nonneg _)
    push_cast
    linarith

/-- The sum as a function of h. -/
theorem sum_lip {h g S R : ℝ} (h0 : 0 ≤ h) (h1 : h ≤ 1) (g0 : 0 ≤ g) (g1 : g ≤ 1) (hS : HasSum (fun n => gk n * h ^ n) S)
    (hR : HasSum (fun n => gk n * g ^ n) R) : |S - R| ≤ |h - g| / 2 := by
  have hpart : ∀ N : ℕ, |∑ i ∈ Finset.range (N + 2), gk i * h ^ i - ∑ i ∈ Finset.range (N + 2), gk i * g ^ i| ≤ |h - g| / 4 * (2 - 1 / ((N : ℝ) + 1)) := by
    intro N
    induction N with
    | zero =>
      simp only [Finset.sum_range_succ, Finset.sum_range_zero, gk_vals.1, gk_vals.2.1]
      rw [show (0 + 1 * h ^ 0 + 1 / 4 * h ^ 1 - (0 + 1 * g ^ 0 + 1 / 4 * g ^ 1)) = (h - g) / 4 by ring, abs_div, abs_of_pos (by norm_num : (0 : ℝ) < 4)]
      norm_num
    | succ N ih =>
      rw [show N + 1 + 2 = N + 2 + 1 by omega, Finset.sum_range_succ (fun i => gk i * h ^ i) (N + 2), Finset.sum_range_succ (fun i => gk i * g ^ i) (N + 2),
        show ∀ A B p q : ℝ, A + p - (B + q) = (A - B) + (p - q) from fun _ _ _ _ => by ring]
      refine (abs_add_le _ _).trans ?_
      have c := gk_cube (N + 1)
      have l := pow_lip h0 h1 g0 g1 (N + 2)
      have t : |gk (N + 2) * h ^ (N + 2) - gk (N + 2) * g ^ (N + 2)| ≤ |h - g| / 4 * (1 / ((N : ℝ) + 1) - 1 / ((N : ℝ) + 2)) := by
        rw [← mul_sub, abs_mul, abs_of_nonneg (gk_nonneg _)]
        refine (mul_le_mul c l (abs_nonneg _) (by positivity)).trans ?_
        push_cast
        rw [show (N : ℝ) + 1 + 1 = N + 2 by ring]
        have e : 1 / (4 * ((N : ℝ) + 2) ^ 3) * (((N : ℝ) + 2) * |h - g|) = |h - g| / 4 * (1 / ((N : ℝ) + 2) ^ 2) := by field_simp
        rw [e]
        refine mul_le_mul_of_nonneg_left ?_ (by positivity)
        rw [div_sub_div _ _ (by positivity) (by positivity), div_le_div_iff₀ (by positivity) (by positivity)]
        have hN : (0 : ℝ) ≤ N := by positivity
        nlinarith
      push_cast
      rw [show (N : ℝ) + 1 + 1 = N + 2 by ring,
        show |h - g| / 4 * (2 - 1 / ((N : ℝ) + 2)) = |h - g| / 4 * (2 - 1 / ((N : ℝ) + 1)) + |h - g| / 4 * (1 / ((N : ℝ) + 1) - 1 / ((N : ℝ) + 2)) by ring]
      linarith
  refine le_of_tendsto (hS.tendsto_sum_nat.sub hR.tendsto_sum_nat).abs (Filter.eventually_atTop.2 ⟨2, fun N hN => ?_⟩)
  have := hpart (N - 2)
  rw [show N - 2 + 2 = N by omega] at this
  refine this.trans ?_
  have : 0 ≤ |h - g| / 4 * (1 / (((N - 2 : ℕ) : ℝ) + 1)) := by positivity
  rw [mul_sub]
  linarith

/-! ### The rounding of the terms -/

/-- The factor of one round. -/
theorem ratio_near {A D h : ℝ} (hA : 0 ≤ A) (hAD : A ≤ D) (hD : 1 ≤ D) (h0 : 0 ≤ h) (h1 : h ≤ 1) :
    |fl (fl (A * h) / D) - A / D * h| ≤ 2.1 / 2 ^ 53 * (A / D * h) + 3 / 2 ^ 500 ∧ A / D * h ≤ 1 := by
  have hD0 : 0 < D := by linarith
  have a1 := fl_tiny (A * h)
  have hAh : 0 ≤ A * h := mul_nonneg hA h0
  rw [abs_of_nonneg hAh] at a1
  have hX : A / D * h = A * h / D := by ring
  have hX1 : A * h / D ≤ 1 := by rw [div_le_one hD0]; nlinarith
  have hX0 : 0 ≤ A * h / D := by positivity
  rw [hX]
  refine ⟨?_, hX1⟩
  have a2 : |fl (A * h) / D - A * h / D| ≤ A * h / D / 2 ^ 53 + 1 / 2 ^ 500 := by
    rw [← sub_div, abs_div, abs_of_pos hD0, div_le_iff₀ hD0]
    refine a1.trans ?_
    rw [add_mul]
    have : A * h / D / 2 ^ 53 * D = A * h / 2 ^ 53 := by field_simp
    rw [this]
    have : (1 : ℝ) / 2 ^ 500 * 1 ≤ 1 / 2 ^ 500 * D := mul_le_mul_of_nonneg_left hD (by positivity)
    linarith
  have w0 : 0 ≤ fl (A * h) / D := div_nonneg (fl_nonneg hAh) hD0.le
  have a3 := fl_tiny (fl (A * h) / D)
  rw [abs_of_nonneg w0] at a3
  have a4 := abs_sub_le (fl (fl (A * h) / D)) (fl (A * h) / D) (A * h / D)
  have a5 := (abs_le.mp a2).2
  have e3 : (3 : ℝ) / 2 ^ 500 = 3 * (1 / 2 ^ 500) := by ring
  have he0 : (0 : ℝ) ≤ 1 / 2 ^ 500 := by positivity
  rw [e3]
  generalize (1 : ℝ) / 2 ^ 500 = ε at *
  generalize fl (A * h) / D = w at *
  generalize A * h / D = X at *
  generalize |fl w - X| = y1 at *
  generalize |fl w - w| = y2 at *
  generalize |w - X| = y3 at *
  norm_num at *
  linarith

theorem drop_eq (n : ℕ) : 1 / ((n : ℝ) + 1) - 1 / (((n + 1 : ℕ) : ℝ) + 1) = 1 / (((n : ℝ) + 1) * ((n : ℝ) + 2)) := by
  push_cast
  rw [show (n : ℝ) + 1 + 1 = n + 2 by ring, div_sub_div _ _ (by positivity) (by positivity)]
  congr 1
  ring

/-- The error of the terms. -/
theorem term_near {n : ℕ} {h t : ℝ} (hn : n ≤ 2 ^ 17) (h0 : 0 ≤ h) (h1 : h ≤ 1) (t0 : 0 ≤ t) (t1 : t ≤ 1 / (4 * ((n : ℝ) + 1) ^ 3))
    (ht : |t - gk (n + 1) * h ^ (n + 1)| ≤ 5 / 2 ^ 53 * (2 - 1 / ((n : ℝ) + 1))) :
    let r := ratio (2 * (n + 1 : ℕ) - 1) (2 * (n + 1 : ℕ) + 2) h
    |t * r - gk (n + 2) * h ^ (n + 2)| ≤ 5 / 2 ^ 53 * (2 - 1 / (((n + 1 : ℕ) : ℝ) + 1)) ∧
    |fl (t * r) - gk (n + 2) * h ^ (n + 2)| ≤ 5 / 2 ^ 53 * (2 - 1 / (((n + 1 : ℕ) : ℝ) + 1)) := by
  intro r
  have hnr : (n : ℝ) ≤ 2 ^ 17 := by exact_mod_cast hn
  have hn0 : (0 : ℝ) ≤ n := by positivity
  set k : ℝ := ((n + 1 : ℕ) : ℝ) with hk
  have hkn : k = n + 1 := by rw [hk]; push_cast; ring
  have e1 : fl ((2 * k - 1) * (2 * k - 1)) = (2 * k - 1) * (2 * k - 1) := by
    have := small_int (n := (2 * n + 1) * (2 * n + 1)) (by
      have : 2 * n + 1 ≤ 2 ^ 19 := by norm_num at *; omega
      exact (Nat.mul_le_mul this this).trans (by norm_num))
    push_cast at this
    rw [hkn, show (2 * ((n : ℝ) + 1) - 1) = 2 * n + 1 by ring]
    exact this
  have e2 : fl ((2 * k + 2) * (2 * k + 2)) = (2 * k + 2) * (2 * k + 2) := by
    have := small_int (n := (2 * n + 4) * (2 * n + 4)) (by
      have : 2 * n + 4 ≤ 2 ^ 19 := by norm_num at *; omega
      exact (Nat.mul_le_mul this this).trans (by norm_num))
    push_cast at this
    rw [hkn, show (2 * ((n : ℝ) + 1) + 2) = 2 * n + 4 by ring]
    exact this
  have hr : r = fl (fl ((2 * k - 1) * (2 * k - 1) * h) / ((2 * k + 2) * (2 * k + 2))) := by
    show ratio (2 * k - 1) (2 * k + 2) h = _
    unfold ratio
    rw [e1, e2]
  obtain ⟨r1, r2⟩ := ratio_near (A := (2 * k - 1) * (2 * k - 1)) (D := (2 * k + 2) * (2 * k + 2)) (mul_self_nonneg _) (by rw [hkn]; nlinarith) (by rw [hkn]; nlinarith) h0 h1
  rw [← hr] at r1
  have hT : gk (n + 2) * h ^ (n + 2) = gk (n + 1) * h ^ (n + 1) * ((2 * k - 1) * (2 * k - 1) / ((2 * k + 2) * (2 * k + 2)) * h) := by
    rw [gk_succ (n + 1), pow_succ h (n + 1), div_pow, sq, sq]
    ring
  have hX0 : 0 ≤ (2 * k - 1) * (2 * k - 1) / ((2 * k + 2) * (2 * k + 2)) * h := by
    have : 0 ≤ (2 * k - 1) * (2 * k - 1) := mul_self_nonneg _
    have : 0 ≤ (2 * k + 2) * (2 * k + 2) := mul_self_nonneg _
    positivity
  have hr0 : 0 ≤ r := hr ▸ fl_nonneg (div_nonneg (fl_nonneg (mul_nonneg (mul_self_nonneg _) h0)) (mul_self_nonneg _))
  -- the term against the drop
  have hd := drop_eq n
  rw [← hk] at hd
  have hDlow : 1 / 2 ^ 40 ≤ 1 / (((n : ℝ) + 1) * ((n : ℝ) + 2)) := by
    refine one_div_le_one_div_of_le (by positivity) ?_
    have : ((n : ℝ) + 1) * ((n : ℝ) + 2) ≤ (2 ^ 17 + 1) * (2 ^ 17 + 2) := mul_le_mul (by linarith) (by linarith) (by positivity) (by positivity)
    exact this.trans (by norm_num)
  have htD : t ≤ 1 / (((n : ℝ) + 1) * ((n : ℝ) + 2)) / 2 := by
    refine t1.trans ?_
    rw [div_div, div_le_div_iff₀ (by positivity) (by positivity)]
    nlinarith [mul_nonneg hn0 hn0, mul_nonneg hn0 (mul_nonneg hn0 hn0)]
  have hD1 : 1 / (((n : ℝ) + 1) * ((n : ℝ) + 2)) ≤ 1 := by rw [div_le_one (by positivity)]; nlinarith
  have he : (1 : ℝ) / 2 ^ 500 ≤ 1 / 2 ^ 60 * (1 / 2 ^ 60) := by
    rw [one_div_mul_one_div, ← pow_add]
    exact one_div_le_one_div_of_le (by positivity) (pow_le_pow_right₀ (by norm_num) (by norm_num))
  have he0 : (0 : ℝ) ≤ 1 / 2 ^ 500 := by positivity
  have e3 : (3 : ℝ) / 2 ^ 500 = 3 * (1 / 2 ^ 500) := by ring
  have hf := fl_tiny (t * r)
  rw [abs_of_nonneg (mul_nonneg t0 hr0)] at hf
  rw [e3] at r1
  rw [hT, show 5 / 2 ^ 53 * (2 - 1 / (k + 1)) = 5 / 2 ^ 53 * (2 - 1 / ((n : ℝ) + 1)) + 5 / 2 ^ 53 * (1 / ((n : ℝ) + 1) - 1 / (k + 1)) by ring, hd]
  set T := gk (n + 1) * h ^ (n + 1)
  generalize (2 * k - 1) * (2 * k - 1) / ((2 * k + 2) * (2 * k + 2)) * h = X at *
  generalize 1 / (((n : ℝ) + 1) * ((n : ℝ) + 2)) = D at *
  generalize 5 / 2 ^ 53 * (2 - 1 / ((n : ℝ) + 1)) = E at *
  generalize (1 : ℝ) / 2 ^ 500 = ε at *
  have hmain : |t * r - T * X| ≤ E + 2.1 / 2 ^ 53 * t + 3 * ε := by
    rw [show t * r - T * X = (t - T) * X + t * (r - X) by ring]
    refine (abs_add_le _ _).trans ?_
    rw [abs_mul, abs_mul, abs_of_nonneg hX0, abs_of_nonneg t0]
    have b1 : |t - T| * X ≤ |t - T| * 1 := mul_le_mul_of_nonneg_left r2 (abs_nonneg _)
    have b2 : t * |r - X| ≤ t * (2.1 / 2 ^ 53 * X + 3 * ε) := mul_le_mul_of_nonneg_left r1 t0
    have b3 : t * X ≤ t * 1 := mul_le_mul_of_nonneg_left r2 t0
    have b4 : t * ε ≤ 1 * ε := mul_le_mul_of_nonneg_right (by linarith) he0
    norm_num at *
    nlinarith
  have hr1 : r ≤ 1.1 := by
    have := (abs_le.mp r1).2
    norm_num at *
    linarith
  have htr : t * r ≤ t * 1.1 := mul_le_mul_of_nonneg_left hr1 t0
  have hfin := abs_sub_le (fl (t * r)) (t * r) (T * X)
  generalize |t * r - T * X| = z1 at *
  generalize |fl (t * r) - T * X| = z2 at *
  generalize |fl (t * r) - t * r| = z3 at *
  generalize t * r = tr at *
  constructor
  · norm_num at *
    linarith
  · norm_num at *
    linarith

/-- What holds of the errors after n rounds. -/
structure Near (n : ℕ) (h t s0 s1 : ℝ) : Prop where
  term : |t - gk (n + 1) * h ^ (n + 1)| ≤ 5 / 2 ^ 53 * (2 - 1 / ((n : ℝ) + 1))
  sum : |s1 - ∑ i ∈ Finset.range (n + 2), gk i * h ^ i| ≤ 11 / 2 ^ 53 * ((n : ℝ) + 1)
  last : ∃ p, s1 = fl (s0 + p) ∧ 0 ≤ p ∧ |p - gk (n + 1) * h ^ (n + 1)| ≤ 10 / 2 ^ 53 ∧ 1 ≤ s0 ∧ s0 + p < 2

theorem near_start {h : ℝ} (h0 : 0 ≤ h) (h1 : h ≤ 1) {s : St} (hs : Start (some h) s) : ∃ t s0 s1, Inv 0 s t s0 s1 ∧ Near 0 h t s0 s1 := by
  obtain ⟨t, s0, s1, hi⟩ := inv_start h0 h1 hs
  obtain ⟨a, b, c, d, e⟩ := hs
  obtain ⟨y, hy, hs1⟩ : ∃ y, MulAdd 1 h 0.25 y ∧ s.sum1 = some y := c
  have ht : t = fl (h * 0.25) := by
    have := hi.term.symm.trans b
    simpa using this
  have h0' : s0 = 1 := by
    have := hi.sum0.symm.trans a
    simpa using this
  have hy1 : s1 = y := by
    have := hi.sum1.symm.trans hs1
    simpa using this
  subst h0' hy1
  refine ⟨t, 1, s1, hi, ?_⟩
  have hf := fl_tiny (h * 0.25)
  rw [abs_of_nonneg (by positivity : (0 : ℝ) ≤ h * 0.25), ← ht] at hf
  have he : (1 : ℝ) / 2 ^ 500 ≤ 1 / 2 ^ 60 := one_div_le_one_div_of_le (by positivity) (pow_le_pow_right₀ (by norm_num) (by norm_num))
  have q : |t - h * 0.25| ≤ 5 / 2 ^ 53 := by
    generalize (1 : ℝ) / 2 ^ 500 = ε at *
    refine hf.trans ?_
    norm_num at *
    linarith
  have t0 := hi.t0
  have tq : t ≤ 0.25 := by have := hi.t1; norm_num at *; linarith
  have key : ∃ p, s1 = fl (1 + p) ∧ 0 ≤ p ∧ p ≤ 0.25 ∧ |p - h * 0.25| ≤ 5 / 2 ^ 53 := by
    rcases hy with hy | hy
    · exact ⟨t, by rw [hy, ht], t0, tq, q⟩
    · exact ⟨h * 0.25, hy, by positivity, by linarith, by rw [sub_self, abs_zero]; positivity⟩
  obtain ⟨p, p1, p2, p3, p4⟩ := key
  have g1 : gk (0 + 1) * h ^ (0 + 1) = h * 0.25 := by rw [zero_add, gk_vals.2.1]; ring
  refine ⟨?_, ?_, p, p1, p2, ?_, le_rfl, by norm_num at *; linarith⟩
  · rw [g1]; refine q.trans ?_; norm_num
  · simp only [Finset.sum_range_succ, Finset.sum_range_zero, gk_vals.1, gk_vals.2.1]
    have hn := fl_near_lt (x := 1 + p) (n := 1) (by rw [abs_of_pos (by linarith)]; norm_num at *; linarith) (by norm_num)
    rw [← p1] at hn
    have := abs_add_le (s1 - (1 + p)) (p - h * 0.25)
    rw [show s1 - (0 + 1 * h ^ 0 + 1 / 4 * h ^ 1) = s1 - (1 + p) + (p - h * 0.25) by ring]
    refine this.trans ?_
    norm_num at *
    linarith
  · rw [g1]; refine p4.trans ?_; norm_num

theorem near_round {n : ℕ} {h t s0 s1 : ℝ} {s s' : St} (hn : n ≤ 2 ^ 17) (h0 : 0 ≤ h) (h1 : h ≤ 1) (hi : Inv n s t s0 s1) (hN : Near n h t s0 s1)
    (hr : Round (some h) s s') : ∃ t' s1', Inv (n + 1) s' t' s1 s1' ∧ Near (n + 1) h t' s1 s1' := by
  obtain ⟨t', s1', p', hi', -⟩ := inv_round hn h0 h1 hi hr
  obtain ⟨a, b, c, d, e⟩ := hr
  have nf := hi'.nf
  have df := hi'.df
  rw [nf, df] at d e
  rw [hi.term] at d e
  rw [hi.sum1] at c e
  obtain ⟨y, hy, hs1⟩ : ∃ y, MulAdd s1 t (ratio (2 * ((n + 1 : ℕ) : ℝ) - 1) (2 * ((n + 1 : ℕ) : ℝ) + 2) h) y ∧ s'.sum1 = some y := e
  have ht : t' = fl (t * ratio (2 * ((n + 1 : ℕ) : ℝ) - 1) (2 * ((n + 1 : ℕ) : ℝ) + 2) h) := by
    have := hi'.term.symm.trans d
    simpa using this
  have hy1 : s1' = y := by
    have := hi'.sum1.symm.trans hs1
    simpa using this
  subst hy1
  obtain ⟨q0, q1, q2, q3⟩ := term_step hn h0 h1 hi.t0 hi.t1
  obtain ⟨z1, z2⟩ := term_near hn h0 h1 hi.t0 hi.t1 hN.term
  rw [← ht] at z2 q2 q3
  have hpos : 0 < 1 / (((n + 1 : ℕ) : ℝ) + 1) := by positivity
  have hb10 : 5 / 2 ^ 53 * (2 - 1 / (((n + 1 : ℕ) : ℝ) + 1)) ≤ 10 / 2 ^ 53 := by
    generalize 1 / (((n + 1 : ℕ) : ℝ) + 1) = X at *
    norm_num
    linarith
  have key : ∃ p, s1' = fl (s1 + p) ∧ 0 ≤ p ∧ p ≤ 1 / (4 * (((n + 1 : ℕ) : ℝ) + 1) ^ 3) ∧ |p - gk (n + 2) * h ^ (n + 2)| ≤ 10 / 2 ^ 53 := by
    rcases hy with hy | hy
    · exact ⟨t', by rw [hy, ht], q2, q3, z2.trans hb10⟩
    · exact ⟨_, hy, q0, q1, z1.trans hb10⟩
  obtain ⟨p, p1, p2, p3, p4⟩ := key
  have hlt : s1 + p < 2 := by
    have a1 := hi.hi
    have a2 : 1 / (4 * (((n + 1 : ℕ) : ℝ) + 1) ^ 3) ≤ 1 / 32 := by
      refine one_div_le_one_div_of_le (by norm_num) ?_
      have : (2 : ℝ) ^ 3 ≤ (((n + 1 : ℕ) : ℝ) + 1) ^ 3 := pow_le_pow_left₀ (by norm_num) (by push_cast; linarith [(by positivity : (0 : ℝ) ≤ n)]) 3
      linarith
    have a3 : 0 < 1 / ((n : ℝ) + 1) := by positivity
    have hnr : (n : ℝ) ≤ 2 ^ 17 := by exact_mod_cast hn
    have a4 : ((n : ℝ) + 1) / 2 ^ 53 ≤ 1 / 4 := by
      have : ((n : ℝ) + 1) / 2 ^ 53 ≤ (2 ^ 17 + 1) / 2 ^ 53 := div_le_div_of_nonneg_right (by linarith) (by positivity)
      exact this.trans (by norm_num)
    linarith
  refine ⟨t', s1', hi', z2, ?_, p, p1, p2, p4, hi.one, hlt⟩
  have hnr := fl_near_lt (x := s1 + p) (n := 1) (by rw [abs_of_pos (by linarith [hi.one])]; norm_num at *; linarith) (by norm_num)
  rw [← p1] at hnr
  rw [show n + 1 + 2 = n + 2 + 1 by omega, Finset.sum_range_succ]
  have hs := hN.sum
  generalize ∑ i ∈ Finset.range (n + 2), gk i * h ^ i = S at *
  generalize gk (n + 2) * h ^ (n + 2) = T at *
  rw [show s1' - (S + T) = (s1' - (s1 + p)) + ((s1 - S) + (p - T)) by ring]
  refine (abs_add_le _ _).trans ?_
  have := abs_add_le (s1 - S) (p - T)
  rw [show 11 / 2 ^ 53 * (((n + 1 : ℕ) : ℝ) + 1) = 11 / 2 ^ 53 * ((n : ℝ) + 1) + 11 / 2 ^ 53 by push_cast; ring]
  generalize 11 / 2 ^ 53 * ((n : ℝ) + 1) = Q at *
  norm_num at *
  linarith

theorem near_after {h : ℝ} (h0 : 0 ≤ h) (h1 : h ≤ 1) {n : ℕ} (hn : n ≤ 2 ^ 17 + 1) {s : St} (hs : After (some h) n s) :
    ∃ t s0 s1, Inv n s t s0 s1 ∧ Near n h t s0 s1 := by
  induction n generalizing s with
  | zero => exact near_start h0 h1 hs
  | succ n ih =>
    obtain ⟨s', ha, -, hr⟩ := hs
    obtain ⟨t, s0, s1, hi, hN⟩ := ih (by omega) ha
    obtain ⟨t', s1', hi', hN'⟩ := near_round (by omega) h0 h1 hi hN hr
    exact ⟨_, _, _, hi', hN'⟩

/-- The sum returned, against the series: 22 units of rounding for each round. -/
theorem sum_near {h S y : ℝ} (h0 : 0 ≤ h) (h1 : h ≤ 1) {n : ℕ} (hn : n ≤ 2 ^ 17 + 1) {s : St} (hs : After (some h) n s) (hg : ¬ Goes s)
    (hy : s.sum0 = some y) (hS : HasSum (fun n => gk n * h ^ n) S) : |y - S| ≤ 22 / 2 ^ 53 * ((n : ℝ) + 1) := by
  obtain ⟨t, s0, s1, hi, hN⟩ := near_after h0 h1 hn hs
  rw [Goes, not_not] at hg
  obtain ⟨x, x0, x1⟩ := hg
  have e0 : s0 = x := by have := hi.sum0.symm.trans x0; simpa using this
  have e1 : s1 = x := by have := hi.sum1.symm.trans x1; simpa using this
  have e2 : y = x := by have := hy.symm.trans x0; simpa using this
  subst e0
  subst e2
  obtain ⟨p, p1, p2, p3, p4, p5⟩ := hN.last
  rw [e1] at p1
  have hs := hN.sum
  rw [e1] at hs
  have hnr := fl_near_lt (x := y + p) (n := 1) (by rw [abs_of_pos (by linarith)]; norm_num at *; linarith) (by norm_num)
  rw [← p1] at hnr
  have hp : p ≤ 1 / 2 ^ 53 := by
    have := (abs_le.mp hnr).1
    norm_num at *
    linarith
  obtain ⟨l1, l2⟩ := tail_le h0 h1 hS n
  have hT : gk (n + 1) * h ^ (n + 1) ≤ 11 / 2 ^ 53 := by
    have := (abs_le.mp p3).1
    norm_num at *
    linarith
  have hT2 := mul_le_mul_of_nonneg_right hT (by positivity : 0 ≤ (n : ℝ) + 1)
  have hs' := abs_le.mp hs
  rw [show 22 / 2 ^ 53 * ((n : ℝ) + 1) = 11 / 2 ^ 53 * ((n : ℝ) + 1) + 11 / 2 ^ 53 * ((n : ℝ) + 1) by ring, abs_le]
  constructor <;> linarith

theorem series_exists {h : ℝ} (h0 : 0 ≤ h) (h1 : h ≤ 1) : ∃ R, HasSum (fun n => gk n * h ^ n) R := by
  have a : Summable fun i : ℕ => 1 / (((i + 1 : ℕ) : ℝ)) ^ 3 := (summable_nat_add_iff 1).mpr (Real.summable_one_div_nat_pow.mpr (by norm_num : 1 < 3))
  have b : Summable fun i : ℕ => gk (i + 1) * h ^ (i + 1) := by
    refine Summable.of_nonneg_of_le (fun i => mul_nonneg (gk_nonneg _) (pow_nonneg h0 _)) (fun i => ?_) a
    refine (mul_le_of_le_one_right (gk_nonneg _) (pow_le_one₀ h0 h1)).trans ((gk_cube i).trans ?_)
    push_cast
    refine one_div_le_one_div_of_le (by positivity) ?_
    linarith [(by positivity : 0 ≤ ((i : ℝ) + 1) ^ 3)]
  exact ⟨_, ((summable_nat_add_iff (f := fun n => gk n * h ^ n) 1).mp b).hasSum⟩

/-! ### The argument of the series -/

theorem sqrt_dist {x y : ℝ} (hx : 0 ≤ x) (hy : 0 ≤ y) : |Real.sqrt x - Real.sqrt y| ^ 2 ≤ |x - y| := by
  have a := Real.sq_sqrt hx
  have b := Real.sq_sqrt hy
  have a0 := Real.sqrt_nonneg x
  have b0 := Real.sqrt_nonneg y
  generalize Real.sqrt x = p at *
  generalize Real.sqrt y = q at *
  rw [← a, ← b, show p ^ 2 - q ^ 2 = (p - q) * (p + q) by ring, abs_mul, abs_of_nonneg (by linarith : 0 ≤ p + q), sq]
  refine mul_le_mul_of_nonneg_left ?_ (abs_nonneg _)
  rw [abs_le]
  constructor <;> linarith

/-- The square root, for all ellipses and for those that are not too thin. -/
theorem root_near {e x : ℝ} (h0 : 0 ≤ e) (h1 : e ≤ 1) (h : Root e (some x)) :
    |x - Real.sqrt (1 - e * e)| ≤ 1 / 2 ^ 26 + 1 / 2 ^ 53 ∧ (e ≤ 0.99 → |x - Real.sqrt (1 - e * e)| ≤ 16 / 2 ^ 53) := by
  obtain ⟨h, hh, hx⟩ := h
  have e1 : e * e ≤ 1 := by nlinarith
  have e0 := mul_nonneg h0 h0
  have hr : 0 ≤ h ∧ h ≤ 1 ∧ |h - (1 - e * e)| ≤ 2 / 2 ^ 53 := by
    have key : ∀ p : ℝ, 0 ≤ p → p ≤ 1 → |p - e * e| ≤ 1 / 2 ^ 53 → 0 ≤ fl (1 - p) ∧ fl (1 - p) ≤ 1 ∧ |fl (1 - p) - (1 - e * e)| ≤ 2 / 2 ^ 53 := by
      intro p p0 p1 hp
      have hn := fl_near_lt (x := 1 - p) (n := 1) (by rw [abs_of_nonneg (by linarith)]; norm_num; linarith) (by norm_num)
      refine ⟨fl_nonneg (by linarith), fl_le_one (by linarith), ?_⟩
      rw [show fl (1 - p) - (1 - e * e) = (fl (1 - p) - (1 - p)) - (p - e * e) by ring]
      refine (abs_sub _ _).trans ?_
      norm_num at *
      linarith
    rcases hh with rfl | rfl
    · have hn := fl_near_lt (x := e * e) (n := 1) (by rw [abs_of_nonneg e0]; norm_num; linarith) (by norm_num)
      exact key _ (fl_nonneg e0) (fl_le_one e1) (hn.trans (by norm_num))
    · exact key _ e0 e1 (by rw [sub_self, abs_zero]; positivity)
  obtain ⟨g0, g1, gd⟩ := hr
  rw [if_neg (by linarith)] at hx
  have hx : x = fl (Real.sqrt h) := by simpa using hx
  have hs1 : Real.sqrt h ≤ 1 := Real.sqrt_le_one.mpr g1
  have hs0 := Real.sqrt_nonneg h
  have hn := fl_near_lt (x := Real.sqrt h) (n := 1) (by rw [abs_of_nonneg hs0]; norm_num; linarith) (by norm_num)
  rw [← hx] at hn
  have hd := sqrt_dist g0 (by linarith : 0 ≤ 1 - e * e)
  have tri := abs_sub_le x (Real.sqrt h) (Real.sqrt (1 - e * e))
  have w0 := Real.sqrt_nonneg (1 - e * e)
  have wq := Real.sq_sqrt (by linarith : 0 ≤ 1 - e * e)
  have hq := Real.sq_sqrt g0
  constructor
  · have : |Real.sqrt h - Real.sqrt (1 - e * e)| ≤ 1 / 2 ^ 26 := abs_le_of_sq_le_sq' (by rw [sq_abs] at hd; refine (hd.trans gd).trans (by norm_num)) (by positivity) |> abs_le.mpr
    norm_num at *
    linarith
  · intro he
    have hw : 0.14 ≤ Real.sqrt (1 - e * e) := Real.le_sqrt_of_sq_le (by nlinarith)
    have : |Real.sqrt h - Real.sqrt (1 - e * e)| ≤ 15 / 2 ^ 53 := by
      generalize Real.sqrt (1 - e * e) = w at *
      generalize Real.sqrt h = q at *
      have : |q - w| * (q + w) ≤ 2 / 2 ^ 53 := by
        rw [← abs_of_nonneg (by linarith : 0 ≤ q + w), ← abs_mul, show (q - w) * (q + w) = h - (1 - e * e) by nlinarith]
        exact gd
      have : |q - w| * 0.14 ≤ |q - w| * (q + w) := mul_le_mul_of_nonneg_left (by linarith) (abs_nonneg _)
      norm_num at *
      linarith
    norm_num at *
    linarith

/-- A quotient of two numbers near 1 − x and 1 + x. -/
theorem quot_near {N D x α β : ℝ} (x0 : 0 ≤ x) (x1 : x ≤ 1) (hD : 1 ≤ D) (hN : |N - (1 - x)| ≤ α) (hDd : |D - (1 + x)| ≤ β) :
    |N / D - (1 - x) / (1 + x)| ≤ α + β := by
  have p : 0 < D * (1 + x) := by positivity
  have a0 := (abs_nonneg _).trans hN
  have b0 := (abs_nonneg _).trans hDd
  rw [div_sub_div _ _ (by positivity) (by positivity), abs_div, abs_of_pos p, div_le_iff₀ p,
    show N * (1 + x) - D * (1 - x) = (N - (1 - x)) * (1 + x) - (D - (1 + x)) * (1 - x) by ring]
  refine (abs_sub _ _).trans ?_
  rw [abs_mul, abs_mul, abs_of_nonneg (by linarith : 0 ≤ 1 + x), abs_of_nonneg (by linarith : 0 ≤ 1 - x)]
  have q1 := mul_le_mul_of_nonneg_right hN (by linarith : 0 ≤ 1 + x)
  have q2 : |D - (1 + x)| * (1 - x) ≤ β * 1 := mul_le_mul hDd (by linarith) (by linarith) b0
  have q3 : (α + β) * (1 + x) ≤ (α + β) * (D * (1 + x)) := mul_le_mul_of_nonneg_left (le_mul_of_one_le_left (by linarith) hD) (by linarith)
  nlinarith

theorem lip_near {x w : ℝ} (x0 : 0 ≤ x) (w0 : 0 ≤ w) : |(1 - x) / (1 + x) - (1 - w) / (1 + w)| ≤ 2 * |x - w| := by
  have p : 0 < (1 + x) * (1 + w) := by positivity
  rw [div_sub_div _ _ (by positivity) (by positivity), abs_div, abs_of_pos p, div_le_iff₀ p,
    show (1 - x) * (1 + w) - (1 + x) * (1 - w) = -2 * (x - w) by ring, abs_mul]
  norm_num
  have : 1 ≤ (1 + x) * (1 + w) := by nlinarith [mul_nonneg x0 w0]
  nlinarith [mul_nonneg (abs_nonneg (x - w)) (by linarith : 0 ≤ (1 + x) * (1 + w) - 1)]

/-- Rounding, relative to a scale that is not tiny. -/
theorem fl_scale {a x : ℝ} (ha : 1 / 2 ^ 400 ≤ a) : |fl x - x| ≤ |x| / 2 ^ 53 + a / 2 ^ 80 := by
  have e : (1 : ℝ) / 2 ^ 500 ≤ 1 / 2 ^ 400 / 2 ^ 80 := by
    rw [div_div, ← pow_add]
    exact one_div_le_one_div_of_le (by positivity) (pow_le_pow_right₀ (by norm_num) (by norm_num))
  have e2 : 1 / 2 ^ 400 / 2 ^ 80 ≤ a / 2 ^ 80 := div_le_div_of_nonneg_right ha (by positivity)
  have := fl_tiny x
  linarith

theorem m_near {a e ω : ℝ} (ra : Rep a) (ha : 1 / 2 ^ 400 ≤ a) (h0 : 0 ≤ e) (h1 : e ≤ 1)
    (hω : ∀ x, Root e (some x) → |x - Real.sqrt (1 - e * e)| ≤ ω) {m : ℝ} (h : M a e (some m)) :
    |m - (1 - Real.sqrt (1 - e * e)) / (1 + Real.sqrt (1 - e * e))| ≤ 2 * ω + 8 / 2 ^ 53 := by
  have ha0 : 0 < a := lt_of_lt_of_le (by positivity) ha
  obtain ⟨s, hs, hm⟩ := h
  obtain ⟨x, rfl, x0, x1⟩ := root_range h0 h1 hs
  obtain ⟨n, d, hn, hd, hm⟩ := hm
  have hm : m = fl (n / d) := by simpa using hm
  have p0 : 0 ≤ a * x := by positivity
  have p1 : a * x ≤ a := by nlinarith
  have q0 := fl_nonneg p0
  have q1 := fl_le ra p1
  have qn := fl_scale ha (x := a * x)
  rw [abs_of_nonneg p0] at qn
  have kn : ∀ p, 0 ≤ p → p ≤ a → |p - a * x| ≤ a * x / 2 ^ 53 + a / 2 ^ 80 → |fl (a - p) - a * (1 - x)| ≤ a * (2.1 / 2 ^ 53) ∧ |fl (a + p) - a * (1 + x)| ≤ a * (3.1 / 2 ^ 53) := by
    intro p p0' p1' hp
    have r1 := fl_scale ha (x := a - p)
    have r2 := fl_scale ha (x := a + p)
    rw [abs_of_nonneg (by linarith : 0 ≤ a - p)] at r1
    rw [abs_of_nonneg (by linarith : 0 ≤ a + p)] at r2
    have t1 := abs_sub (fl (a - p) - (a - p)) (p - a * x)
    have t2 := abs_add_le (fl (a + p) - (a + p)) (p - a * x)
    rw [show fl (a - p) - (a - p) - (p - a * x) = fl (a - p) - a * (1 - x) by ring] at t1
    rw [show fl (a + p) - (a + p) + (p - a * x) = fl (a + p) - a * (1 + x) by ring] at t2
    clear ha
    generalize |fl (a - p) - a * (1 - x)| = z1 at *
    generalize |fl (a + p) - a * (1 + x)| = z2 at *
    norm_num at *
    constructor <;> linarith
  have hz : |a * x - a * x| ≤ a * x / 2 ^ 53 + a / 2 ^ 80 := by rw [sub_self, abs_zero]; positivity
  have n1 : |n - a * (1 - x)| ≤ a * (2.1 / 2 ^ 53) := by
    rcases hn with rfl | rfl
    · exact (kn _ q0 q1 qn).1
    · exact (kn _ p0 p1 hz).1
  have d2 : |d - a * (1 + x)| ≤ a * (3.1 / 2 ^ 53) ∧ a ≤ d := by
    rcases hd with rfl | rfl
    · exact ⟨(kn _ q0 q1 qn).2, le_fl ra (by linarith)⟩
    · exact ⟨(kn _ p0 p1 hz).2, le_fl ra (by linarith)⟩
  have sc : ∀ z y c : ℝ, |z - a * y| ≤ a * c → |z / a - y| ≤ c := by
    intro z y c hz
    rw [show z / a - y = (z - a * y) / a by field_simp, abs_div, abs_of_pos ha0, div_le_iff₀ ha0]
    linarith
  have qq := quot_near x0 x1 (by rw [le_div_iff₀ ha0]; linarith [d2.2] : 1 ≤ d / a) (sc _ _ _ n1) (sc _ _ _ d2.1)
  rw [div_div_div_cancel_right₀ ha0.ne'] at qq
  have v0 : 0 ≤ (1 - x) / (1 + x) := div_nonneg (by linarith) (by linarith)
  have v1 : (1 - x) / (1 + x) ≤ 1 := by rw [div_le_one (by linarith)]; linarith
  have hb := abs_le.mp qq
  have hf := fl_near_lt (x := n / d) (n := 1) (by rw [abs_lt]; constructor <;> norm_num at * <;> linarith) (by norm_num)
  rw [← hm] at hf
  have hl := lip_near x0 (Real.sqrt_nonneg (1 - e * e))
  have hw := hω x hs
  have t1 := abs_sub_le m (n / d) ((1 - x) / (1 + x))
  have t2 := abs_sub_le m ((1 - x) / (1 + x)) ((1 - Real.sqrt (1 - e * e)) / (1 + Real.sqrt (1 - e * e)))
  generalize |m - n / d| = z1 at *
  generalize |m - (1 - x) / (1 + x)| = z2 at *
  norm_num at *
  linarith

/-! ### The length -/

set_option maxHeartbeats 1000000 in
theorem len_near {a e ω : ℝ} (ra : Rep a) (ha : 1 / 2 ^ 400 ≤ a) (h0 : 0 ≤ e) (h1 : e < 1)
    (hω : ∀ x, Root e (some x) → |x - Real.sqrt (1 - e * e)| ≤ ω) (hω1 : ω ≤ 1.5e-8) {n : ℕ} {L : ℝ} (h : Length4 a e n L) :
    Rel L (Verif.Spec.ellipseLength a (a * Real.sqrt (1 - e * e))) ((4 * ω + (22 * n + 46) / 2 ^ 53) * (1 + 1e-7)) := by
  have ha0 : 0 < a := lt_of_lt_of_le (by positivity) ha
  obtain ⟨m, s, x, y, hm, hs, hg, rfl, hy, hL⟩ := h
  have hn := (C203_ends_partial ra ha0 h0 h1.le hm hs).1
  obtain ⟨x', hx', x0, x1⟩ := m_range ra ha0 h0 h1.le hm
  have hx' : x = x' := by simpa using hx'
  subst hx'
  obtain ⟨b, g, hb, hb0, hba, hgd, g0, g1, -, S, hS, hE⟩ := ellipse_axes ha0 h0 h1
  rw [← hb, hE]
  have mn := m_near ra ha h0 h1.le hω hm
  have w0 := Real.sqrt_nonneg (1 - e * e)
  have w1 : Real.sqrt (1 - e * e) ≤ 1 := Real.sqrt_le_one.mpr (by nlinarith)
  generalize Real.sqrt (1 - e * e) = w at *
  set m0 := (1 - w) / (1 + w) with hm0
  have m00 : 0 ≤ m0 := div_nonneg (by linarith) (by linarith)
  have m01 : m0 ≤ 1 := by rw [hm0, div_le_one (by linarith)]; linarith
  have hg0 : g = m0 * m0 := by
    rw [hgd, hb, hm0]
    have : 1 + w ≠ 0 := by positivity
    have : a + a * w ≠ 0 := by positivity
    field_simp
  have hk0 : 0 ≤ fl (x * x) := fl_nonneg (mul_nonneg x0 x0)
  have hxx : x * x ≤ 1 := by nlinarith
  have hk1 : fl (x * x) ≤ 1 := fl_le_one hxx
  have hs' : After (some (fl (x * x))) n s := hs
  obtain ⟨R, hR⟩ : ∃ R, HasSum (fun n => gk n * fl (x * x) ^ n) R := series_exists hk0 hk1
  have y1 := sum_near hk0 hk1 hn hs' hg hy hR
  have y2 := sum_lip hk0 hk1 g0 g1.le hR hS
  have hf := fl_near_lt (x := x * x) (n := 1) (by rw [abs_of_nonneg (mul_nonneg x0 x0)]; norm_num; linarith) (by norm_num)
  set μ := 2 * ω + 8 / 2 ^ 53 with hμ
  have xm : |x * x - m0 * m0| ≤ 2 * μ := by
    rw [show x * x - m0 * m0 = (x - m0) * (x + m0) by ring, abs_mul, abs_of_nonneg (by linarith : 0 ≤ x + m0)]
    have := mul_le_mul mn (by linarith : x + m0 ≤ 2) (by linarith) ((abs_nonneg _).trans mn)
    linarith
  have gd : |fl (x * x) - g| ≤ 2 * μ + 1 / 2 ^ 53 := by
    have := abs_sub_le (fl (x * x)) (x * x) g
    rw [hg0] at this ⊢
    refine this.trans ?_
    norm_num at *
    linarith
  set ν := 22 / 2 ^ 53 * ((n : ℝ) + 1) + μ + 1 / 2 ^ 53 with hν
  have yS : |y - S| ≤ ν := by
    have := abs_sub_le y R S
    rw [hν]
    linarith
  have hnr : (n : ℝ) ≤ 2 ^ 17 + 1 := by exact_mod_cast hn
  have hn0 : (0 : ℝ) ≤ n := by positivity
  have hω0 : 0 ≤ ω := by
    by_contra hc
    obtain ⟨s, hs, -⟩ := hm
    obtain ⟨x, rfl, -⟩ := root_range h0 h1.le hs
    exact hc ((abs_nonneg _).trans (hω x hs))
  have hμ0 : 0 ≤ μ := by positivity
  have hμ1 : μ ≤ 3.1e-8 := by rw [hμ]; norm_num at *; linarith
  have hν0 : 0 ≤ ν := by positivity
  have hν1 : ν ≤ 3.2e-8 := by
    have : 22 / 2 ^ 53 * ((n : ℝ) + 1) ≤ 22 / 2 ^ 53 * (2 ^ 17 + 1 + 1) := mul_le_mul_of_nonneg_left (by linarith) (by positivity)
    have hμ2 : μ ≤ 3.001e-8 := by rw [hμ]; norm_num at *; linarith
    rw [hν]
    norm_num at *
    linarith
  have hS1 : 1 ≤ S := by
    have := sum_le_hasSum (Finset.range 1) (fun i _ => mul_nonneg (gk_nonneg i) (pow_nonneg g0 i)) hS
    simpa [gk_vals.1] using this
  have rel_of : ∀ p q c : ℝ, 1 ≤ q → |p - q| ≤ c → Rel p q c := by
    intro p q c hq hc
    have q0 : 0 < q := by linarith
    refine ⟨(p - q) / q, ?_, by field_simp; ring⟩
    rw [abs_div, abs_of_pos q0, div_le_iff₀ q0]
    exact hc.trans (le_mul_of_one_le_right ((abs_nonneg _).trans hc) hq)
  have ry := rel_of y S ν hS1 yS
  have rd := rel_of (1 + x) (1 + m0) μ (by linarith) (by rw [show 1 + x - (1 + m0) = x - m0 by ring]; exact mn)
  have pi3 := Real.pi_gt_three
  have big : ∀ z : ℝ, 1 / 2 ^ 400 ≤ z → z = 0 ∨ 1 / 2 ^ 1000 ≤ |z| := fun z hz => Or.inr (by
    rw [abs_of_pos (lt_of_lt_of_le (by positivity) hz)]
    exact (one_div_le_one_div_of_le (by positivity) (pow_le_pow_right₀ (by norm_num) (by norm_num))).trans hz)
  have one400 : (1 : ℝ) / 2 ^ 400 ≤ 1 := by
    rw [div_le_one (by positivity)]
    exact one_le_pow₀ (by norm_num)
  have l1 : 1 / 2 ^ 400 ≤ 2 * Real.pi * a := ha.trans (le_mul_of_one_le_left ha0.le (by linarith))
  have l2 : 1 / 2 ^ 400 ≤ 2 * Real.pi * a * S := l1.trans (le_mul_of_one_le_right (by positivity) hS1)
  have l3 : 1 / 2 ^ 400 ≤ 2 * Real.pi * a * S / (1 + m0) := by
    rw [le_div_iff₀ (by linarith)]
    have : a * 2 ≤ 2 * Real.pi * a * S := by
      have : 2 * Real.pi * a * 1 ≤ 2 * Real.pi * a * S := mul_le_mul_of_nonneg_left hS1 (by positivity)
      have h3 : a * 2 ≤ 2 * Real.pi * a := by nlinarith
      linarith
    refine (mul_le_mul ha (by linarith : 1 + m0 ≤ 2) (by linarith) ha0.le).trans this
  have r1 := rel_mono (rel_fl (rel_self (2 * Real.pi)) (by norm_num) (big _ (by linarith))) (show _ ≤ 1 / 2 ^ 53 by norm_num)
  have r2 := rel_mono (rel_fl (rel_mul r1 (rel_self a)) (by norm_num) (big _ l1)) (show _ ≤ 2.1 / 2 ^ 53 by norm_num)
  have r3 := rel_fl (rel_mul r2 ry) (by norm_num at *; linarith) (big _ l2)
  have r3' := rel_mono r3 (show _ ≤ ν + 3.2 / 2 ^ 53 by norm_num at *; linarith)
  have r4 := rel_mono (rel_fl rd (by norm_num at *; linarith) (big _ (by linarith))) (show _ ≤ μ + 1.1 / 2 ^ 53 by norm_num at *; linarith)
  have r5 := rel_mono (rel_div r3' r4 (by linarith) (by norm_num at *; linarith)) (show _ ≤ (ν + μ + 4.3 / 2 ^ 53) * (1 + 0.9e-7) by
    rw [div_le_iff₀ (by norm_num at *; linarith)]
    have hden : 1 ≤ (1 + 0.9e-7) * (1 - (μ + 1.1 / 2 ^ 53)) := by norm_num at *; linarith
    have hnum : 0 ≤ ν + μ + 4.3 / 2 ^ 53 := by positivity
    have := mul_le_mul_of_nonneg_left hden hnum
    linarith)
  have r6 := rel_fl r5 (by norm_num at *; linarith) (big _ l3)
  rw [← hL] at r6
  have hEq : 2 * Real.pi * a * S / (1 + m0) = Real.pi * (a + b) * S := by
    have h1 : 1 + m0 = 2 / (1 + w) := by
      rw [hm0]
      have : 1 + w ≠ 0 := by positivity
      field_simp
      ring
    rw [h1, hb]
    have : 1 + w ≠ 0 := by positivity
    field_simp
  rw [hEq] at r6
  refine rel_mono r6 ?_
  have hn' : (22 * (n : ℝ) + 46) / 2 ^ 53 = 22 / 2 ^ 53 * ((n : ℝ) + 1) + 24 / 2 ^ 53 := by ring
  rw [hn']
  generalize 22 / 2 ^ 53 * ((n : ℝ) + 1) = Q at *
  have hωμ : 4 * ω = 2 * μ - 16 / 2 ^ 53 := by rw [hμ]; ring
  have hQ : Q = ν - μ - 1 / 2 ^ 53 := by rw [hν]; ring
  rw [hωμ, hQ]
  norm_num at *
  linarith

/-- C203.  The length returned is within 1e-7 of itself of the length of the ellipse, for all ellipses. -/
theorem C203_length_partial {a e : ℝ} (ra : Rep a) (ha : 1 / 2 ^ 400 ≤ a) (h0 : 0 ≤ e) (h1 : e < 1) {n : ℕ} {L : ℝ} (h : Length4 a e n L) :
    |L - Verif.Spec.ellipseLength a (a * Real.sqrt (1 - e * e))| ≤ 1e-7 * |Verif.Spec.ellipseLength a (a * Real.sqrt (1 - e * e))| := by
  have hn : n ≤ 2 ^ 17 + 1 := by
    obtain ⟨m, s, x, y, hm, hs, -⟩ := h
    exact (C203_ends_partial ra (lt_of_lt_of_le (by positivity) ha) h0 h1.le hm hs).1
  have hnr : (n : ℝ) ≤ 2 ^ 17 + 1 := by exact_mod_cast hn
  obtain ⟨δ, hδ, hL⟩ := len_near ra ha h0 h1 (fun x hx => (root_near h0 h1.le hx).1) (by norm_num) h
  rw [hL, show ∀ E : ℝ, E * (1 + δ) - E = δ * E from fun E => by ring, abs_mul]
  refine mul_le_mul_of_nonneg_right (hδ.trans ?_) (abs_nonneg _)
  have : (22 * (n : ℝ) + 46) / 2 ^ 53 ≤ (22 * (2 ^ 17 + 1) + 46) / 2 ^ 53 := div_le_div_of_nonneg_right (by linarith) (by positivity)
  norm_num at *
  linarith

/-- C203.  For eccentricities up to 0.99 the error is 22 units of rounding a round and 111 more. -/
theorem C203_rounds_partial {a e : ℝ} (ra : Rep a) (ha : 1 / 2 ^ 400 ≤ a) (h0 : 0 ≤ e) (h1 : e ≤ 0.99) {n : ℕ} {L : ℝ} (h : Length4 a e n L) :
    |L - Verif.Spec.ellipseLength a (a * Real.sqrt (1 - e * e))| ≤ (22 * n + 111) / 2 ^ 53 * |Verif.Spec.ellipseLength a (a * Real.sqrt (1 - e * e))| := by
  have he : e < 1 := by norm_num at *; linarith
  have hn : n ≤ 2 ^ 17 + 1 := by
    obtain ⟨m, s, x, y, hm, hs, -⟩ := h
    exact (C203_ends_partial ra (lt_of_lt_of_le (by positivity) ha) h0 he.le hm hs).1
  have hnr : (n : ℝ) ≤ 2 ^ 17 + 1 := by exact_mod_cast hn
  obtain ⟨δ, hδ, hL⟩ := len_near ra ha h0 he (fun x hx => (root_near h0 he.le hx).2 h1) (by norm_num) h
  rw [hL, show ∀ E : ℝ, E * (1 + δ) - E = δ * E from fun E => by ring, abs_mul]
  refine mul_le_mul_of_nonneg_right (hδ.trans ?_) (abs_nonneg _)
  generalize (n : ℝ) = N at *
  norm_num at hnr ⊢
  linarith

/-- The hypotheses can be met: for the semimajor axis 1 and e = 1/2 the function returns after some number of rounds. -/
theorem C203_example : Rep 1 ∧ ∃ n L, Length4 1 (1 / 2) n L := by
  refine ⟨rep_one, ?_⟩
  obtain ⟨m, hm⟩ : ∃ m, M 1 (1 / 2) m := by
    obtain ⟨x, hx, -⟩ := root_range (by norm_num) (by norm_num) (⟨_, Or.inl rfl, rfl⟩ : Root (1 / 2) _)
    exact ⟨_, some x, hx ▸ ⟨_, Or.inl rfl, rfl⟩, _, _, Or.inl rfl, Or.inl rfl, rfl⟩
  obtain ⟨x, rfl, x0, x1⟩ := m_range rep_one one_pos (by norm_num) (by norm_num) hm
  have hk0 : 0 ≤ fl (x * x) := fl_nonneg (mul_nonneg x0 x0)
  have hk1 : fl (x * x) ≤ 1 := fl_le_one (by nlinarith)
  by_contra hc
  have hgo : ∀ n s, After (some (fl (x * x))) n s → n ≤ 2 ^ 17 + 1 → Goes s := by
    intro n s hs hn
    by_contra hg
    obtain ⟨t, s0, s1, hi⟩ := inv_after hk0 hk1 hn hs
    exact hc ⟨n, _, _, s, x, s0, hm, hs, hg, rfl, hi.sum0, rfl⟩
  have all : ∀ n, n ≤ 2 ^ 17 + 1 → ∃ s, After (some (fl (x * x))) n s := by
    intro n
    induction n with
    | zero => exact fun _ => ⟨⟨some 1, some (fl (1 + fl (fl (x * x) * 0.25))), some (fl (fl (x * x) * 0.25)), -1, 2⟩, rfl, rfl, ⟨_, Or.inl rfl, rfl⟩, rfl, rfl⟩
    | succ n ih =>
      intro hn
      obtain ⟨s, hs⟩ := ih (by omega)
      obtain ⟨t, s0, s1, hi⟩ := inv_after hk0 hk1 (by omega) hs
      refine ⟨⟨s.sum1, some (fl (s1 + fl (t * ratio (fl (s.nf + 2)) (fl (s.df + 2)) (fl (x * x))))), some (fl (t * ratio (fl (s.nf + 2)) (fl (s.df + 2)) (fl (x * x)))), _, _⟩, s, hs, hgo n s hs (by omega), rfl, rfl, rfl, ?_, ?_⟩
      · rw [hi.term]; rfl
      · rw [hi.term, hi.sum1]
        exact ⟨_, Or.inl rfl, rfl⟩
  obtain ⟨s, hs⟩ := all _ le_rfl
  exact (C203_ends_partial rep_one one_pos (by norm_num) (by norm_num) hm hs).2 rfl (hgo _ s hs le_rfl)

end Verif.Props.Length64v
