import Verif.Model.Elliptic
import Verif.Lemmas.Ellipse
import Verif.Lemmas.Rotation
import Verif.Props.Kepler
import Verif.Props.Coord
import Mathlib.Tactic

/-! Properties C109–C113: speed on an orbit, length of an orbit, position from elements, astrometric position. -/

namespace Verif.Props

open Verif.Go Real Verif.Model.Elliptic Verif.Model.Kepler Verif.Lemmas Verif.Spec

/-! ### C109 -/

/-- C109.  The speeds at perihelion and aphelion are those of `Velocity` there, to a relative 10⁻⁶. -/
theorem C109_ends (a e : ℝ) (ha : 0 < a) (h0 : 0 ≤ e) (h1 : e < 1) :
    |Velocity a (a * (1 - e)) - VPerihelion a e| ≤ 1e-6 * VPerihelion a e ∧
    |Velocity a (a * (1 + e)) - VAphelion a e| ≤ 1e-6 * VAphelion a e := by
  have key : ∀ w : ℝ, 0 ≤ w → |42.1219 * sqrt (w / 2) - 29.7847 * sqrt w| ≤ 1e-6 * (29.7847 * sqrt w) := by
    intro w hw
    have e1 : sqrt (w / 2) = sqrt w * sqrt 2 / 2 := by
      rw [sqrt_div hw]
      have h2 : sqrt 2 ≠ 0 := by positivity
      have h3 : sqrt 2 * sqrt 2 = 2 := mul_self_sqrt (by norm_num)
      field_simp
      rw [sq, h3]
    have hl : (1.4142135 : ℝ) ≤ sqrt 2 := le_sqrt_of_sq_le (by norm_num)
    have hu : sqrt 2 ≤ 1.4142136 := by rw [sqrt_le_left (by norm_num)]; norm_num
    have hw' := sqrt_nonneg w
    rw [e1, abs_le]
    constructor <;> nlinarith
  have hm : (0 : ℝ) < 1 - e := by linarith
  have hp : (0 : ℝ) < 1 + e := by linarith
  have e1 : 1 / (a * (1 - e)) - 0.5 / a = (1 + e) / (1 - e) / a / 2 := by field_simp; ring
  have e2 : 1 / (a * (1 + e)) - 0.5 / a = (1 - e) / (1 + e) / a / 2 := by field_simp; ring
  unfold Velocity VPerihelion VAphelion
  rw [e1, e2]
  exact ⟨key _ (by positivity), key _ (by positivity)⟩

/-- C109.  The same areas are swept at perihelion and aphelion (distance times speed), for every orbit. -/
theorem C109_areas (a e : ℝ) (ha : 0 < a) (h0 : 0 ≤ e) (h1 : e < 1) :
    a * (1 - e) * VPerihelion a e = a * (1 + e) * VAphelion a e := by
  have hm : (0 : ℝ) < 1 - e := by linarith
  have hp : (0 : ℝ) < 1 + e := by linarith
  unfold VPerihelion VAphelion
  have e1 : (1 - e) * sqrt ((1 + e) / (1 - e) / a) = sqrt ((1 - e) * (1 + e) / a) := by
    rw [← sqrt_sq hm.le, ← sqrt_mul (sq_nonneg _), sqrt_sq hm.le]
    congr 1
    field_simp
  have e2 : (1 + e) * sqrt ((1 - e) / (1 + e) / a) = sqrt ((1 - e) * (1 + e) / a) := by
    rw [← sqrt_sq hp.le, ← sqrt_mul (sq_nonneg _), sqrt_sq hp.le]
    congr 1
    field_simp
  linear_combination (29.7847 * a) * e1 - (29.7847 * a) * e2

/-- C109.  The speed decreases with the distance, all over the orbit and beyond, and the speeds at the ends are the extremes. -/
theorem C109_decreasing (a r r' : ℝ) (ha : 0 < a) (hr : 0 < r) (h : r < r') :
    Velocity a r' ≤ Velocity a r ∧ (r < 2 * a → Velocity a r' < Velocity a r) := by
  have h3 : 1 / r' < 1 / r := one_div_lt_one_div_of_lt hr h
  unfold Velocity
  constructor
  · have : sqrt (1 / r' - 0.5 / a) ≤ sqrt (1 / r - 0.5 / a) := sqrt_le_sqrt (by linarith)
    linarith
  · intro h4
    have h5 : 0 < 1 / r - 0.5 / a := by
      have : 1 / r - 0.5 / a = (2 * a - r) / (2 * a * r) := by field_simp; ring
      rw [this]
      have : 0 < 2 * a - r := by linarith
      positivity
    have : sqrt (1 / r' - 0.5 / a) < sqrt (1 / r - 0.5 / a) := by
      rcases le_or_gt (1 / r' - 0.5 / a) 0 with h6 | h6
      · rw [sqrt_eq_zero_of_nonpos h6]; exact sqrt_pos.2 h5
      · exact sqrt_lt_sqrt h6.le (by linarith)
    linarith

/-- A circular orbit of radius one. -/
example : VPerihelion 1 0 = 29.7847 ∧ VAphelion 1 0 = 29.7847 := by
  unfold VPerihelion VAphelion; norm_num

/-! ### The series of the length -/

/-- The squares of the binomial coefficients of one half. -/
noncomputable def gk (n : ℕ) : ℝ := halfChoose n ^ 2

theorem gk_nonneg (n : ℕ) : 0 ≤ gk n := sq_nonneg _

theorem gk_succ (n : ℕ) : gk (n + 1) = gk n * ((2 * n - 1) / (2 * n + 2)) ^ 2 := by
  unfold gk
  rw [halfChoose]
  have : (n : ℝ) + 1 ≠ 0 := by positivity
  have : 2 * (n : ℝ) + 2 ≠ 0 := by positivity
  field_simp
  ring

theorem gk_vals : gk 0 = 1 ∧ gk 1 = 1 / 4 ∧ gk 2 = 1 / 64 ∧ gk 3 = 1 / 256 ∧ gk 4 = 25 / 16384 := by
  have g0 : gk 0 = 1 := by simp [gk, halfChoose]
  have g1 : gk 1 = 1 / 4 := by rw [gk_succ 0, g0]; norm_num
  have g2 : gk 2 = 1 / 64 := by rw [gk_succ 1, g1]; norm_num
  have g3 : gk 3 = 1 / 256 := by rw [gk_succ 2, g2]; norm_num
  have g4 : gk 4 = 25 / 16384 := by rw [gk_succ 3, g3]; norm_num
  exact ⟨g0, g1, g2, g3, g4⟩

theorem gk_ratio (n : ℕ) : gk (n + 1) ≤ gk n := by
  rw [gk_succ]
  refine mul_le_of_le_one_right (gk_nonneg n) ?_
  rw [sq_le_one_iff_abs_le_one, abs_div, abs_of_pos (by positivity : (0 : ℝ) < 2 * n + 2), div_le_one (by positivity), abs_le]
  have : (0 : ℝ) ≤ n := Nat.cast_nonneg n
  constructor <;> linarith

/-- The tail of the sum of the `gk` telescopes below `gk n (n + 1) / 2`. -/
theorem gk_tail (n : ℕ) (hn : 2 ≤ n) : gk n ≤ gk n * ((n + 1) / 2) - gk (n + 1) * (((n + 1 : ℕ) + 1) / 2) := by
  rw [gk_succ]
  have h2 : (2 : ℝ) ≤ n := by exact_mod_cast hn
  have hd : (0 : ℝ) < 2 * n + 2 := by linarith
  have : 1 ≤ (n + 1 : ℝ) / 2 - ((2 * n - 1) / (2 * n + 2)) ^ 2 * (((n + 1 : ℕ) + 1) / 2) := by
    rw [div_pow]
    push_cast
    rw [div_mul_eq_mul_div, le_sub_iff_add_le, ← le_sub_iff_add_le', div_le_iff₀ (by positivity)]
    nlinarith
  nlinarith [gk_nonneg n]

/-- Bounds of the series on [0, 1). -/
theorem series_bounds {h S : ℝ} (h0 : 0 ≤ h) (h1 : h ≤ 1) (hS : HasSum (fun n => gk n * h ^ n) S) :
    1 + h / 4 + h ^ 2 / 64 + h ^ 3 / 256 ≤ S ∧
    S ≤ 1 + h / 4 + h ^ 2 / 64 + h ^ 3 / 256 + 0.003815 * h ^ 4 := by
  obtain ⟨g0, g1, g2, g3, g4⟩ := gk_vals
  have f4 : ∑ n ∈ Finset.range 4, gk n * h ^ n = 1 + h / 4 + h ^ 2 / 64 + h ^ 3 / 256 := by
    simp only [Finset.sum_range_succ, Finset.sum_range_zero, g0, g1, g2, g3]; ring
  constructor
  · rw [← f4]
    exact sum_le_hasSum _ (fun n _ => mul_nonneg (gk_nonneg n) (pow_nonneg h0 n)) hS
  · have key : ∀ N : ℕ, ∑ n ∈ Finset.range (N + 4), gk n * h ^ n + gk (N + 4) * (((N + 4 : ℕ) + 1) / 2) * h ^ 4 ≤
        1 + h / 4 + h ^ 2 / 64 + h ^ 3 / 256 + 0.003815 * h ^ 4 := by
      intro N
      induction N with
      | zero =>
        rw [zero_add, f4, g4]
        have := pow_nonneg h0 4
        push_cast
        nlinarith
      | succ N ih =>
        rw [show N + 1 + 4 = (N + 4) + 1 by ring, Finset.sum_range_succ]
        have t := gk_tail (N + 4) (by omega)
        have hp : h ^ (N + 4) ≤ h ^ 4 := pow_le_pow_of_le_one h0 h1 (by omega)
        have : gk (N + 4) * h ^ (N + 4) ≤ gk (N + 4) * h ^ 4 := mul_le_mul_of_nonneg_left hp (gk_nonneg _)
        have t4 := mul_le_mul_of_nonneg_right t (pow_nonneg h0 4)
        rw [sub_mul] at t4
        linarith
    have lim := hS.tendsto_sum_nat
    have lim' := (Filter.tendsto_add_atTop_iff_nat 4).mpr lim
    refine le_of_tendsto' lim' fun N => ?_
    have := key N
    have hp : 0 ≤ gk (N + 4) * (((N + 4 : ℕ) + 1) / 2) * h ^ 4 := by
      have := gk_nonneg (N + 4)
      positivity
    linarith

/-- The ellipse of semi-axis a and eccentricity e: minor semi-axis and the number h of the series. -/
theorem ellipse_axes {a e : ℝ} (ha : 0 < a) (h0 : 0 ≤ e) (h1 : e < 1) :
    ∃ b h : ℝ, b = a * sqrt (1 - e * e) ∧ 0 < b ∧ b ≤ a ∧ h = ((a - b) / (a + b)) ^ 2 ∧ 0 ≤ h ∧ h < 1 ∧
      4 * (a * b) = (a + b) ^ 2 * (1 - h) ∧
      ∃ S, HasSum (fun n => gk n * h ^ n) S ∧ ellipseLength a b = π * (a + b) * S := by
  have hq : 0 < 1 - e * e := by nlinarith
  have hb : 0 < a * sqrt (1 - e * e) := mul_pos ha (sqrt_pos.2 hq)
  have hba : a * sqrt (1 - e * e) ≤ a := by
    have : sqrt (1 - e * e) ≤ 1 := Real.sqrt_le_one.2 (by nlinarith)
    nlinarith
  refine ⟨_, _, rfl, hb, hba, rfl, by positivity, ?_, ?_, ?_⟩
  · rw [sq_lt_one_iff_abs_lt_one, abs_div, abs_of_pos (by positivity : 0 < a + a * sqrt (1 - e * e)), div_lt_one (by positivity), abs_lt]
    constructor <;> linarith
  · have : a + a * sqrt (1 - e * e) ≠ 0 := by positivity
    field_simp
    ring
  · have h := hasSum_ellipseLength ha hb
    have hs : π * (a + a * sqrt (1 - e * e)) ≠ 0 := by positivity
    refine ⟨ellipseLength a (a * sqrt (1 - e * e)) / (π * (a + a * sqrt (1 - e * e))), ?_, by field_simp⟩
    have h' := h.div_const (π * (a + a * sqrt (1 - e * e)))
    refine h'.congr_fun ?_ 
    intro n
    unfold gk
    rw [sq ((a - _) / _)]
    field_simp

/-! ### C110 -/

theorem length4Loop_spec (lost : ℝ → ℝ → Prop) (h : ℝ) (k n : ℕ) (hn : 1 ≤ n) :
    (∀ v, length4Loop lost h k (∑ i ∈ Finset.range n, gk i * h ^ i) (gk n * h ^ n) (2 * n - 3) (2 * n) = some v →
      ∃ N, n ≤ N ∧ v = ∑ i ∈ Finset.range N, gk i * h ^ i ∧ lost v (gk N * h ^ N)) ∧
    (∀ N, n ≤ N → N < n + k → lost (∑ i ∈ Finset.range N, gk i * h ^ i) (gk N * h ^ N) →
      ∃ v, length4Loop lost h k (∑ i ∈ Finset.range n, gk i * h ^ i) (gk n * h ^ n) (2 * n - 3) (2 * n) = some v) := by
  induction k generalizing n with
  | zero =>
    refine ⟨fun v hv => ?_, fun N h1 h2 => by omega⟩
    simp [length4Loop] at hv
  | succ k ih =>
    have step : ∀ x : ℝ, ((∑ i ∈ Finset.range n, gk i * h ^ i) + gk n * h ^ n = ∑ i ∈ Finset.range (n + 1), gk i * h ^ i) ∧
        (gk n * h ^ n * ((2 * n - 3 + 2) * (2 * n - 3 + 2) * h / ((2 * n + 2) * (2 * n + 2))) = gk (n + 1) * h ^ (n + 1)) ∧
        ((2 * n - 3 + 2 : ℝ) = 2 * (n + 1 : ℕ) - 3) ∧ ((2 * n + 2 : ℝ) = 2 * (n + 1 : ℕ)) := by
      intro x
      refine ⟨(Finset.sum_range_succ _ _).symm, ?_, by push_cast; ring, by push_cast; ring⟩
      rw [gk_succ]
      have : (2 * n + 2 : ℝ) ≠ 0 := by positivity
      field_simp
      ring
    obtain ⟨s1, s2, s3, s4⟩ := step 0
    by_cases hl : lost (∑ i ∈ Finset.range n, gk i * h ^ i) (gk n * h ^ n)
    · constructor
      · intro v hv
        rw [length4Loop, if_pos hl] at hv
        injection hv with hv
        exact ⟨n, le_refl _, hv.symm, hv ▸ hl⟩
      · intro N _ _ _
        exact ⟨_, by rw [length4Loop, if_pos hl]⟩
    · have e : length4Loop lost h (k + 1) (∑ i ∈ Finset.range n, gk i * h ^ i) (gk n * h ^ n) (2 * n - 3) (2 * n) =
          length4Loop lost h k (∑ i ∈ Finset.range (n + 1), gk i * h ^ i) (gk (n + 1) * h ^ (n + 1)) (2 * (n + 1 : ℕ) - 3) (2 * (n + 1 : ℕ)) := by
        rw [length4Loop, if_neg hl]
        dsimp only
        rw [s1, s2, s3, s4]
      rw [e]
      constructor
      · intro v hv
        obtain ⟨N, h1, h2⟩ := (ih (n + 1) (by omega)).1 v hv
        exact ⟨N, by omega, h2⟩
      · intro N h1 h2 h3
        rcases Nat.lt_or_ge n N with h4 | h4
        · exact (ih (n + 1) (by omega)).2 N (by omega) (by omega) h3
        · have : N = n := by omega
          exact absurd (this ▸ h3) hl

/-- What the proof needs of floating point: an addend that gets lost is at most η, and addends below some positive bound do get
lost when added to a number between 1 and 2. -/
structure Rounding (lost : ℝ → ℝ → Prop) (η : ℝ) : Prop where
  small : ∀ s t, 1 ≤ s → lost s t → t ≤ η
  absorb : ∃ η0 > 0, ∀ s t, 1 ≤ s → s ≤ 2 → 0 ≤ t → t < η0 → lost s t

/-- Binary floating point with 53 bits. -/
example : Rounding (fun _ t => t ≤ 2⁻¹ ^ 53) (2⁻¹ ^ 53) :=
  ⟨fun _ _ _ h => h, ⟨2⁻¹ ^ 53, by positivity, fun _ _ _ _ _ h => h.le⟩⟩

theorem Rounding.eta_pos {lost : ℝ → ℝ → Prop} {η : ℝ} (r : Rounding lost η) : 0 < η := by
  obtain ⟨η0, hp, hr⟩ := r.absorb
  have := r.small 1 (η0 / 2) (le_refl _) (hr 1 _ (le_refl _) (by norm_num) (by linarith) (by linarith))
  linarith

/-- C110.  For every ellipse the loop of Length4 ends, and the result is the length of the ellipse up to the terms that got lost in
rounding: at most `η / (1 - h)` of π (a + b), where η is the rounding unit and `1 - h = 4 a b / (a + b)²`. -/
theorem C110_length4 (lost : ℝ → ℝ → Prop) (η a e : ℝ) (hr : Rounding lost η) (ha : 0 < a) (h0 : 0 ≤ e) (h1 : e < 1) :
    ∃ b, b = a * sqrt (1 - e * e) ∧ (∃ fuel0, ∀ fuel ≥ fuel0, ∃ v, Length4 lost fuel a e = some v) ∧
      ∀ fuel v, Length4 lost fuel a e = some v →
        v ≤ ellipseLength a b ∧ ellipseLength a b - v ≤ π * (a + b) * (η * ((a + b) ^ 2 / (4 * (a * b)))) := by
  obtain ⟨b, h, hb, hb0, hba, hh, hh0, hh1, hab, S, hS, hL⟩ := ellipse_axes ha h0 h1
  refine ⟨b, hb, ?_⟩
  have hs : 0 < a + b := by positivity
  obtain ⟨g0, g1, -⟩ := gk_vals
  have hm : (a - b) / (a + b) * ((a - b) / (a + b)) = h := by rw [hh]; ring
  have hnn : ∀ n, 0 ≤ gk n * h ^ n := fun n => mul_nonneg (gk_nonneg n) (pow_nonneg hh0 n)
  have hone : ∀ N, 1 ≤ N → 1 ≤ ∑ i ∈ Finset.range N, gk i * h ^ i := by
    intro N hN
    calc (1 : ℝ) = ∑ i ∈ Finset.range 1, gk i * h ^ i := by simp [g0]
      _ ≤ _ := Finset.sum_le_sum_of_subset_of_nonneg (Finset.range_mono hN) (fun i _ _ => hnn i)
  have hS2 : S ≤ 2 := by
    have := (series_bounds hh0 hh1.le hS).2
    have h2 : h ^ 2 ≤ 1 := pow_le_one₀ hh0 hh1.le
    have h3 : h ^ 3 ≤ 1 := pow_le_one₀ hh0 hh1.le
    have h4 : h ^ 4 ≤ 1 := pow_le_one₀ hh0 hh1.le
    linarith
  have hsumS : ∀ N, ∑ i ∈ Finset.range N, gk i * h ^ i ≤ S := fun N => sum_le_hasSum _ (fun n _ => hnn n) hS
  have start : ∀ fuel, length4Loop lost h fuel 1 (h * 0.25) (-1) 2 =
      length4Loop lost h fuel (∑ i ∈ Finset.range 1, gk i * h ^ i) (gk 1 * h ^ 1) (2 * (1 : ℕ) - 3) (2 * (1 : ℕ)) := by
    intro fuel
    congr 1
    · simp [g0]
    · rw [g1]; ring
    · norm_num
    · norm_num
  have scale : ∀ s : ℝ, 2 * π * a * s / (1 + (a - b) / (a + b)) = π * (a + b) * s := by
    intro s
    have : 1 + (a - b) / (a + b) = 2 * a / (a + b) := by field_simp; ring
    rw [this]
    field_simp
  have L4 : ∀ fuel, Length4 lost fuel a e = (length4Loop lost h fuel 1 (h * 0.25) (-1) 2).map fun s => π * (a + b) * s := by
    intro fuel
    unfold Length4
    dsimp only
    rw [← hb, hm]
    congr 1
    funext s
    exact scale s
  constructor
  · obtain ⟨η0, hp, habs⟩ := hr.absorb
    have lim := hS.summable.tendsto_atTop_zero
    obtain ⟨N, hN⟩ := (lim.eventually (gt_mem_nhds hp)).exists_forall_of_atTop
    have hlost := habs _ _ (hone (N + 1) (by omega)) ((hsumS (N + 1)).trans hS2) (hnn (N + 1)) (hN (N + 1) (by omega))
    refine ⟨N + 1, fun fuel hf => ?_⟩
    obtain ⟨v, hv⟩ := (length4Loop_spec lost h fuel 1 (le_refl _)).2 (N + 1) (by omega) (by omega) hlost
    exact ⟨π * (a + b) * v, by rw [L4, start, hv]; rfl⟩
  · intro fuel v hv
    rw [L4, start, Option.map_eq_some_iff] at hv
    obtain ⟨s, hs1, rfl⟩ := hv
    obtain ⟨N, hN, rfl, hl⟩ := (length4Loop_spec lost h fuel 1 (le_refl _)).1 s hs1
    have hη := hr.small _ _ (hone N hN) hl
    rw [hL]
    have hps : 0 < π * (a + b) := by positivity
    constructor
    · exact mul_le_mul_of_nonneg_left (hsumS N) hps.le
    · rw [← mul_sub]
      refine mul_le_mul_of_nonneg_left ?_ hps.le
      have e1 : (a + b) ^ 2 / (4 * (a * b)) = (1 - h)⁻¹ := by
        rw [hab]
        have : 1 - h ≠ 0 := by linarith
        field_simp
      rw [e1]
      have tail := (hasSum_nat_add_iff' N).mpr hS
      have dom : ∀ n, gk (n + N) * h ^ (n + N) ≤ η * h ^ n := by
        intro n
        have mono : gk (n + N) ≤ gk N := antitone_nat_of_succ_le gk_ratio (Nat.le_add_left N n)
        calc gk (n + N) * h ^ (n + N) ≤ gk N * h ^ (n + N) := mul_le_mul_of_nonneg_right mono (pow_nonneg hh0 _)
          _ = gk N * h ^ N * h ^ n := by rw [pow_add]; ring
          _ ≤ η * h ^ n := mul_le_mul_of_nonneg_right hη (pow_nonneg hh0 _)
      exact hasSum_le dom tail ((hasSum_geometric_of_lt_one hh0 hh1).mul_left η)

/-! ### C111 -/

/-- C111.  Length1 never exceeds the length, and falls short of it by less than 0.43 percent; for small flattening by less than
`0.0054 h³`. -/
theorem C111_length1 (a e : ℝ) (ha : 0 < a) (h0 : 0 ≤ e) (h1 : e < 1) :
    ∃ b h, b = a * sqrt (1 - e * e) ∧ h = ((a - b) / (a + b)) ^ 2 ∧
      Length1 a e ≤ ellipseLength a b ∧
      ellipseLength a b - Length1 a e ≤ π * (a + b) * (0.0054 * h ^ 3) ∧
      ellipseLength a b - Length1 a e ≤ 0.0043 * ellipseLength a b := by
  obtain ⟨b, h, hb, hb0, hba, hh, hh0, hh1, hab, S, hS, hL⟩ := ellipse_axes ha h0 h1
  refine ⟨b, h, hb, hh, ?_⟩
  have hs : 0 < a + b := by positivity
  obtain ⟨l, u⟩ := series_bounds hh0 hh1.le hS
  have e1 : Length1 a e = π * (a + b) * (3 - sqrt (4 - h)) := by
    unfold Length1
    dsimp only
    rw [← hb, show (a + 3 * b) * (3 * a + b) = (a + b) ^ 2 * (4 - h) by linear_combination hab,
      sqrt_mul (sq_nonneg _), sqrt_sq hs.le]
    ring
  have r0 := sqrt_nonneg (4 - h)
  have rr : sqrt (4 - h) ^ 2 = 4 - h := sq_sqrt (by linarith)
  have h2 : h ^ 2 ≤ h := by nlinarith
  have h3 : h ^ 3 ≤ h ^ 2 := by nlinarith
  have h4 : h ^ 4 ≤ h ^ 3 := by nlinarith [pow_nonneg hh0 3]
  have p2 := pow_nonneg hh0 2
  have p3 := pow_nonneg hh0 3
  have p4 := pow_nonneg hh0 4
  have low : 2 - h / 4 - h ^ 2 / 64 - h ^ 3 / 256 ≤ sqrt (4 - h) := by
    apply le_sqrt_of_sq_le
    nlinarith [pow_nonneg hh0 5, pow_nonneg hh0 6, pow_le_one₀ hh0 hh1.le (n := 5), pow_le_pow_of_le_one hh0 hh1.le (show 3 ≤ 5 by norm_num), pow_le_pow_of_le_one hh0 hh1.le (show 3 ≤ 6 by norm_num)]
  have upp : sqrt (4 - h) ≤ 2 - h / 4 - h ^ 2 / 64 - h ^ 3 / 256 + 0.0054 * h ^ 3 - 0.003815 * h ^ 4 := by
    rw [sqrt_le_left (by linarith)]
    have q0 : 0 ≤ 1 - h := by linarith
    have t3 := mul_nonneg p3 q0
    have t4 := mul_nonneg p4 q0
    have t5 := mul_nonneg (pow_nonneg hh0 5) q0
    have t6 := mul_nonneg (pow_nonneg hh0 6) q0
    have t7 := mul_nonneg (pow_nonneg hh0 7) q0
    have t8 := pow_nonneg hh0 8
    have tq := mul_nonneg p3 (mul_nonneg q0 q0)
    ring_nf at *
    nlinarith only [t3, t4, t5, t6, t7, t8, tq, p3, p4]
  have d1 : 0 ≤ S - (3 - sqrt (4 - h)) := by linarith
  have d2 : S - (3 - sqrt (4 - h)) ≤ 0.0054 * h ^ 3 := by linarith
  have d3 : S - (3 - sqrt (4 - h)) ≤ 0.0043 * S := by
    have : 0.0054 * h ^ 3 ≤ 0.0043 * S := by nlinarith
    linarith
  have hps : 0 < π * (a + b) := by positivity
  rw [e1, hL]
  have m1 := mul_nonneg hps.le d1
  have m2 := mul_le_mul_of_nonneg_left d2 hps.le
  have m3 := mul_le_mul_of_nonneg_left d3 hps.le
  rw [mul_sub] at m1 m2 m3
  refine ⟨?_, ?_, ?_⟩ <;> linarith

set_option maxHeartbeats 1000000 in
/-- C111.  Length2 is never below the length, and exceeds it by less than 3.4 percent. -/
theorem C111_length2 (a e : ℝ) (ha : 0 < a) (h0 : 0 ≤ e) (h1 : e < 1) :
    ∃ b h, b = a * sqrt (1 - e * e) ∧ h = ((a - b) / (a + b)) ^ 2 ∧
      ellipseLength a b ≤ Length2 a e ∧
      Length2 a e - ellipseLength a b ≤ π * (a + b) * (0.04296875 * h ^ 3) ∧
      Length2 a e - ellipseLength a b ≤ 0.034 * ellipseLength a b := by
  obtain ⟨b, h, hb, hb0, hba, hh, hh0, hh1, hab, S, hS, hL⟩ := ellipse_axes ha h0 h1
  refine ⟨b, h, hb, hh, ?_⟩
  have hs : 0 < a + b := by positivity
  obtain ⟨l, u⟩ := series_bounds hh0 hh1.le hS
  have e1 : Length2 a e = π * (a + b) * ((18 + 3 * h - 2 * sqrt (1 - h)) / 16) := by
    unfold Length2
    dsimp only
    have hab' : a * b = ((a + b) / 2) ^ 2 * (1 - h) := by linear_combination hab / 4
    rw [← hb, hab', sqrt_mul (sq_nonneg _), sqrt_sq (by positivity)]
    field_simp
    ring
  have r0 := sqrt_nonneg (1 - h)
  have rr : sqrt (1 - h) ^ 2 = 1 - h := sq_sqrt (by linarith)
  have h2 : h ^ 2 ≤ h := by nlinarith
  have h3 : h ^ 3 ≤ h ^ 2 := by nlinarith
  have h4 : h ^ 4 ≤ h ^ 3 := by nlinarith [pow_nonneg hh0 3]
  have p2 := pow_nonneg hh0 2
  have p3 := pow_nonneg hh0 3
  have p4 := pow_nonneg hh0 4
  have upp : sqrt (1 - h) ≤ 1 - h / 2 - h ^ 2 / 8 - h ^ 3 / 32 - 0.03052 * h ^ 4 := by
    rw [sqrt_le_left (by linarith)]
    have q0 : 0 ≤ 1 - h := by linarith
    have t3 := mul_nonneg p3 q0
    have t4 := mul_nonneg p4 q0
    have t5 := mul_nonneg (pow_nonneg hh0 5) q0
    have t6 := mul_nonneg (pow_nonneg hh0 6) q0
    have t7 := mul_nonneg (pow_nonneg hh0 7) q0
    have t8 := pow_nonneg hh0 8
    have tq := mul_nonneg p3 (mul_nonneg q0 q0)
    ring_nf at *
    nlinarith only [t3, t4, t5, t6, t7, t8, tq, p3, p4]
  have low : 1 - h / 2 - h ^ 2 / 8 - h ^ 3 / 32 - 8 * 0.04296875 * h ^ 3 ≤ sqrt (1 - h) := by
    set r := sqrt (1 - h) with hr
    have w0 : 0 ≤ 1 + h / 2 + 3 * h ^ 2 / 8 := by positivity
    have w1 : (r * (1 + h / 2 + 3 * h ^ 2 / 8)) ^ 2 ≤ 1 := by
      rw [mul_pow, rr]
      nlinarith [pow_nonneg hh0 5]
    have w2 : r * (1 + h / 2 + 3 * h ^ 2 / 8) ≤ 1 := (abs_le.mp ((sq_le_one_iff_abs_le_one _).mp w1)).2
    have w3 := mul_le_mul_of_nonneg_left w2 r0
    have w4 : r * (r * (1 + h / 2 + 3 * h ^ 2 / 8)) = (1 - h) * (1 + h / 2 + 3 * h ^ 2 / 8) := by
      rw [← rr]; ring
    rw [w4] at w3
    linarith
  have d1 : 0 ≤ (18 + 3 * h - 2 * sqrt (1 - h)) / 16 - S := by linarith
  have d2 : (18 + 3 * h - 2 * sqrt (1 - h)) / 16 - S ≤ 0.04296875 * h ^ 3 := by linarith
  have d3 : (18 + 3 * h - 2 * sqrt (1 - h)) / 16 - S ≤ 0.034 * S := by
    have : 0.04296875 * h ^ 3 ≤ 0.034 * S := by linarith
    linarith
  have hps : 0 < π * (a + b) := by positivity
  rw [e1, hL]
  have m1 := mul_nonneg hps.le d1
  have m2 := mul_le_mul_of_nonneg_left d2 hps.le
  have m3 := mul_le_mul_of_nonneg_left d3 hps.le
  rw [mul_sub] at m1 m2 m3
  refine ⟨?_, ?_, ?_⟩ <;> linarith

/-! ### C112 -/

/-- C40 for every eccentric anomaly other than odd multiples of π. -/
theorem true_radius_all (E e a : ℝ) (h0 : 0 ≤ e) (h1 : e < 1) (hE : cos (E / 2) ≠ 0) :
    Radius E e a * cos (TrueAnom E e) = a * (cos E - e) ∧
    Radius E e a * sin (TrueAnom E e) = a * (sqrt (1 - e ^ 2) * sin E) := by
  have hπ := pi_pos
  set k := ⌊(E + π) / (2 * π)⌋ with hk
  obtain ⟨E', hE'⟩ : ∃ E', E' = E - k * (2 * π) := ⟨_, rfl⟩
  have l1 : (k : ℝ) * (2 * π) ≤ E + π := by
    have := Int.floor_le ((E + π) / (2 * π))
    rwa [le_div_iff₀ (by positivity)] at this
  have l2 : E + π < (k + 1) * (2 * π) := by
    have := Int.lt_floor_add_one ((E + π) / (2 * π))
    rwa [div_lt_iff₀ (by positivity)] at this
  have hEE : E = E' + k * (2 * π) := by rw [hE']; ring
  have hne : E' ≠ -π := by
    intro h
    apply hE
    rw [hEE, h, show (-π + k * (2 * π)) / 2 = -(π / 2) + k * π by ring, cos_add_int_mul_pi, cos_neg, cos_pi_div_two, mul_zero]
  have habs : |E'| < π := by
    rw [abs_lt]
    refine ⟨lt_of_le_of_ne (by linarith) (Ne.symm hne), by linarith⟩
  obtain ⟨c, s, -⟩ := C40_true_radius E' e a h0 h1 habs
  have hT : TrueAnom E e = TrueAnom E' e := by
    unfold TrueAnom
    rw [hEE, show (E' + k * (2 * π)) * 0.5 = E' * 0.5 + k * π by ring, tan_add_int_mul_pi]
  have hc : cos E = cos E' := by rw [hEE, cos_add_int_mul_two_pi]
  have hs : sin E = sin E' := by rw [hEE, sin_add_int_mul_two_pi]
  have hr : Radius E e a = Radius E' e a := by unfold Radius; rw [hc]
  rw [hT, hr, hc, hs]
  exact ⟨c, s⟩

/-- Whichever of the two methods is used, the eccentric anomaly satisfies Kepler's equation for the mean anomaly, up to full turns,
to within 10⁻¹⁵. -/
theorem C112_anomaly (k : Elements) (jde : ℝ) (h0 : 0 ≤ k.Ecc) (h1 : k.Ecc < 1) :
    ∃ n : ℤ, |k.anomaly jde - k.Ecc * sin (k.anomaly jde) -
      (Model.Orbits.K / k.Axis / sqrt k.Axis * (jde - k.TimeP) + n * (2 * π))| ≤ 1e-15 := by
  unfold Elements.anomaly
  dsimp only
  set M := Model.Orbits.K / k.Axis / sqrt k.Axis * (jde - k.TimeP)
  cases h : Kepler2b k.Ecc M 15 with
  | some E =>
    refine ⟨0, ?_⟩
    have := C39_kepler2b k.Ecc M h0 h1 15 E h
    simp only [Option.getD_some, Int.cast_zero, zero_mul, add_zero]
    refine this.trans ?_
    have : k.Ecc * ((10 : ℝ) ^ (-15 : ℤ)) ^ 2 ≤ 1 * ((10 : ℝ) ^ (-15 : ℤ)) ^ 2 := mul_le_mul_of_nonneg_right h1.le (by positivity)
    refine this.trans ?_
    norm_num
  | none =>
    obtain ⟨-, -, E, n, hE, hd⟩ := C37_kepler3 k.Ecc M h0 h1
    refine ⟨n, ?_⟩
    simp only [Option.getD_none]
    rw [← hE]
    have hs := abs_sin_sub_sin_le (Kepler3 k.Ecc M) E
    have e1 : Kepler3 k.Ecc M - k.Ecc * sin (Kepler3 k.Ecc M) - (E - k.Ecc * sin E) =
        (Kepler3 k.Ecc M - E) - k.Ecc * (sin (Kepler3 k.Ecc M) - sin E) := by ring
    rw [e1]
    have h2 := abs_sub (Kepler3 k.Ecc M - E) (k.Ecc * (sin (Kepler3 k.Ecc M) - sin E))
    rw [abs_mul, abs_of_nonneg h0] at h2
    have h3 : k.Ecc * |sin (Kepler3 k.Ecc M) - sin E| ≤ 1 * |Kepler3 k.Ecc M - E| :=
      mul_le_mul h1.le hs (abs_nonneg _) (by norm_num)
    have h4 : π / 2 / 2 ^ 53 ≤ (4 : ℝ) / 2 / 2 ^ 53 := by
      have := pi_le_four
      gcongr
    have h5 : (4 : ℝ) / 2 / 2 ^ 53 ≤ 4.5e-16 := by norm_num
    linarith

/-- The place of the body: the elliptic orbit turned into space, then from ecliptic to equator with the constants of J2000. -/
theorem C112_place (k : Elements) (jde : ℝ) (h0 : 0 ≤ k.Ecc) (h1 : k.Ecc < 1) (hE : cos (k.anomaly jde / 2) ≠ 0) :
    ∃ v, v = orbitPlace k.Axis k.Ecc k.Inc k.ArgP k.Node (k.anomaly jde) ∧
      k.xyz jde = (v 0, COblJ2000 * v 1 - SOblJ2000 * v 2, SOblJ2000 * v 1 + COblJ2000 * v 2) := by
  obtain ⟨c, s⟩ := true_radius_all (k.anomaly jde) k.Ecc k.Axis h0 h1 hE
  refine ⟨_, rfl, ?_⟩
  unfold orbitPlace
  rw [rotZ_vec, rotX_vec, rotZ_vec]
  unfold Elements.xyz
  dsimp only
  have key : ∀ F P r u : ℝ, r * sqrt (F ^ 2 + P ^ 2) * sin (atan2 F P + k.ArgP + u) =
      F * (r * cos u * cos k.ArgP - r * sin u * sin k.ArgP) + P * (r * sin u * cos k.ArgP + r * cos u * sin k.ArgP) := by
    intro F P r u
    obtain ⟨p1, p2⟩ := atan2_polar F P
    rw [show F ^ 2 + P ^ 2 = P ^ 2 + F ^ 2 by ring, add_assoc, sin_add, sin_add, cos_add]
    linear_combination (r * (cos k.ArgP * cos u - sin k.ArgP * sin u)) * p2 + (r * (sin k.ArgP * cos u + cos k.ArgP * sin u)) * p1
  rw [key, key, key, c, s]
  simp only [Prod.mk.injEq]
  refine ⟨?_, ?_, ?_⟩ <;> simp <;> ring

/-- The constants of the obliquity are a sine and a cosine to 10⁻⁹. -/
theorem C112_obliquity : |SOblJ2000 ^ 2 + COblJ2000 ^ 2 - 1| ≤ 1e-9 := by
  unfold SOblJ2000 COblJ2000
  rw [abs_le]; constructor <;> norm_num

/-- A circular orbit of radius one, at the time of perihelion. -/
example : cos ((⟨1, 0, 0, 0, 0, 0⟩ : Elements).anomaly 0 / 2) ≠ 0 := by
  obtain ⟨n, hn⟩ := C112_anomaly ⟨1, 0, 0, 0, 0, 0⟩ 0 (le_refl _) (by norm_num)
  have hπ := pi_gt_three
  simp only [zero_mul, sub_zero, mul_zero, zero_add] at hn
  set E := (⟨1, 0, 0, 0, 0, 0⟩ : Elements).anomaly 0
  obtain ⟨d, hd⟩ : ∃ d, d = (E - n * (2 * π)) / 2 := ⟨_, rfl⟩
  have hE : E / 2 = d + n * π := by rw [hd]; ring
  rw [abs_le] at hn
  have : 0 < cos d := cos_pos_of_mem_Ioo ⟨by rw [hd]; norm_num at hn; linarith [hn.1], by rw [hd]; norm_num at hn; linarith [hn.2]⟩
  rw [hE, cos_add_int_mul_pi]
  exact mul_ne_zero (zpow_ne_zero _ (by norm_num)) this.ne'

/-! ### C113 -/

/-- A vector as three numbers. -/
noncomputable def vec3 (p : ℝ × ℝ × ℝ) : V3 := !₂[p.1, p.2.1, p.2.2]

/-- A place given by longitude, latitude and distance. -/
noncomputable def place (p : ℝ × ℝ × ℝ) : V3 := p.2.2 • dir p.1 p.2.1

theorem norm_vec3 (x y z : ℝ) : ‖(!₂[x, y, z] : V3)‖ = sqrt (x * x + y * y + z * z) := by
  rw [EuclideanSpace.norm_eq]
  simp [Fin.sum_univ_three, sq]

theorem vec_ne_zero_iff {x y z : ℝ} : (!₂[x, y, z] : V3) ≠ 0 → 0 < x * x + y * y + z * z := by
  intro h
  have := norm_pos_iff.mpr h
  rw [norm_vec3] at this
  exact sqrt_pos.mp this

theorem dir_of_vec {x y z Δ : ℝ} (hΔ : 0 < Δ) (h : Δ ^ 2 = x * x + y * y + z * z) :
    (!₂[x, y, z] : V3) = Δ • dir (atan2 y x) (arcsin (z / Δ)) := by
  have := dir_scaled (x := x / Δ) (y := y / Δ) (z := z / Δ) (c := 1 / Δ) (by positivity) (by field_simp; rw [h]; ring)
  rw [show y / Δ / (1 / Δ) = y by field_simp, show x / Δ / (1 / Δ) = x by field_simp] at this
  rw [this]
  ext i
  fin_cases i <;> simp <;> field_simp

theorem dir_of_vec' {x y z : ℝ} :
    (!₂[x, y, z] : V3) = sqrt (x * x + y * y + z * z) • dir (atan2 y x) (atan2 z (sqrt (x ^ 2 + y ^ 2))) ∧
    |atan2 z (sqrt (x ^ 2 + y ^ 2))| ≤ π / 2 := by
  obtain ⟨p1, p2⟩ := atan2_polar y x
  obtain ⟨q1, q2⟩ := atan2_polar z (sqrt (x ^ 2 + y ^ 2))
  have hs : sqrt (x ^ 2 + y ^ 2) ^ 2 + z ^ 2 = x * x + y * y + z * z := by rw [sq_sqrt (by positivity)]; ring
  rw [hs] at q1 q2
  constructor
  · unfold dir
    ext i
    fin_cases i <;> simp
    · rw [← mul_assoc, q1, p1]
    · rw [← mul_assoc, q1, p2]
    · rw [q2]
  · unfold atan2
    rw [Complex.abs_arg_le_pi_div_two_iff]
    exact sqrt_nonneg _

theorem vec3_add (p q : ℝ × ℝ × ℝ) : vec3 p + vec3 q = !₂[p.1 + q.1, p.2.1 + q.2.1, p.2.2 + q.2.2] := by
  unfold vec3
  ext i
  fin_cases i <;> simp

/-- C113.  The right ascension and declination of `AstrometricJ2000` are the direction from the Earth to the place the body had
one light time earlier, the light time being that of its present distance; the elongation is the angle between that direction
and the Sun. -/
theorem C113_astrometric (f sun : ℝ → ℝ × ℝ × ℝ) (jde : ℝ) (hsun : vec3 (sun jde) ≠ 0)
    (hv : vec3 (sun jde) + vec3 (f (jde - LightTime ‖vec3 (sun jde) + vec3 (f jde)‖)) ≠ 0) :
    ∃ α δ ψ v, AstrometricJ2000 f sun jde = (α, δ, ψ) ∧
      v = vec3 (sun jde) + vec3 (f (jde - LightTime ‖vec3 (sun jde) + vec3 (f jde)‖)) ∧
      v = ‖v‖ • dir α δ ∧ 0 ≤ α ∧ α < 2 * π ∧ |δ| ≤ π / 2 ∧
      ψ = InnerProductGeometry.angle v (vec3 (sun jde)) := by
  refine ⟨_, _, _, _, rfl, rfl, ?_⟩
  rw [vec3_add (sun jde) (f jde), norm_vec3] at hv
  rw [vec3_add (sun jde) (f jde), norm_vec3]
  set w := f (jde - LightTime (sqrt (((sun jde).1 + (f jde).1) * ((sun jde).1 + (f jde).1) +
    ((sun jde).2.1 + (f jde).2.1) * ((sun jde).2.1 + (f jde).2.1) +
    ((sun jde).2.2 + (f jde).2.2) * ((sun jde).2.2 + (f jde).2.2)))) with hw
  rw [vec3_add] at hv ⊢
  have hpos := vec_ne_zero_iff hv
  obtain ⟨m0, m1, -⟩ := mod1_eq (atan2 ((sun jde).2.1 + w.2.1) ((sun jde).1 + w.1))
  refine ⟨?_, m0, m1, abs_arcsin_le _, ?_⟩
  · rw [norm_vec3, dir_mod1]
    exact dir_of_vec (sqrt_pos.2 hpos) (sq_sqrt hpos.le)
  · unfold InnerProductGeometry.angle vec3
    rw [inner_vec, norm_vec3, norm_vec3]
    congr 1
    rw [div_div, mul_comm (sqrt _) (sqrt _)]

/-- C113.  The single iteration for light time is good for slow bodies: if the body moves at most V AU per day, the light time used
differs from that of the place found by at most 0.0057755183 V of itself. -/
theorem C113_lighttime (f sun : ℝ → ℝ × ℝ × ℝ) (jde V : ℝ)
    (hV : ∀ s t, ‖vec3 (f s) - vec3 (f t)‖ ≤ V * |s - t|) (τ : ℝ) (hτ : τ = LightTime ‖vec3 (sun jde) + vec3 (f jde)‖) :
    |LightTime ‖vec3 (sun jde) + vec3 (f (jde - τ))‖ - τ| ≤ 0.0057755183 * V * τ := by
  have hτ0 : 0 ≤ τ := by rw [hτ]; unfold LightTime; positivity
  conv_lhs => rw [hτ]
  unfold LightTime
  rw [← mul_sub, abs_mul, abs_of_pos (by norm_num : (0 : ℝ) < 0.0057755183), mul_assoc]
  refine mul_le_mul_of_nonneg_left ?_ (by norm_num)
  refine (abs_norm_sub_norm_le _ _).trans ?_
  have := hV (jde - τ) jde
  rw [show jde - τ - jde = -τ by ring, abs_neg, abs_of_nonneg hτ0] at this
  have e : vec3 (sun jde) + vec3 (f (jde - τ)) - (vec3 (sun jde) + vec3 (f jde)) = vec3 (f (jde - τ)) - vec3 (f jde) := by abel
  have hτ' : jde - 0.0057755183 * ‖vec3 (sun jde) + vec3 (f jde)‖ = jde - τ := by rw [hτ]; rfl
  rw [hτ', e]
  exact this

/-- C113.  The direction found in `Position`, before aberration, FK5 correction and nutation, is the direction from the Earth to the
place of the planet one light time earlier; the result is that direction, corrected, in equatorial coordinates. -/
theorem C113_planet (p earth : ℝ → ℝ × ℝ × ℝ) (jde : ℝ) :
    ∃ v l β, geocentric p earth jde = (l, β) ∧
      v = place (p (jde - LightTime ‖place (p jde) - place (earth jde)‖)) - place (earth jde) ∧
      v = ‖v‖ • dir l β ∧ |β| ≤ π / 2 := by
  have hp : ∀ a b : ℝ × ℝ × ℝ, place a - place b =
      !₂[a.2.2 * cos a.2.1 * cos a.1 - b.2.2 * cos b.2.1 * cos b.1, a.2.2 * cos a.2.1 * sin a.1 - b.2.2 * cos b.2.1 * sin b.1,
        a.2.2 * sin a.2.1 - b.2.2 * sin b.2.1] := by
    intro a b
    unfold place dir
    ext i
    fin_cases i <;> simp <;> ring
  refine ⟨_, _, _, rfl, rfl, ?_⟩
  rw [hp (p jde) (earth jde), norm_vec3]
  rw [hp, norm_vec3]
  exact dir_of_vec'

/-- C113.  Without the corrections the result of `Position` is the direction of the planet turned from the ecliptic to the equator. -/
theorem C113_equatorial (p earth : ℝ → ℝ × ℝ × ℝ) (ε jde : ℝ) (aberr fk5 : ℝ → ℝ → ℝ → ℝ × ℝ) (nut : ℝ → ℝ × ℝ) (obl : ℝ → ℝ)
    (l β : ℝ) (hg : fk5 ((geocentric p earth jde).1 + (aberr (geocentric p earth jde).1 (geocentric p earth jde).2 jde).1)
      ((geocentric p earth jde).2 + (aberr (geocentric p earth jde).1 (geocentric p earth jde).2 jde).2) jde = (l, β))
    (hβ : |β| < π / 2) (hε : ε = obl jde + (nut jde).2) :
    dir (Position p earth aberr fk5 nut obl jde).1 (Position p earth aberr fk5 nut obl jde).2 =
      rotX ε (dir (l + (nut jde).1) β) := by
  have e : Position p earth aberr fk5 nut obl jde = Model.Coord.EclToEq (l + (nut jde).1) β (sin ε) (cos ε) := by
    unfold Position
    dsimp only
    rw [hg, hε]
  rw [e, C46_eclToEq_rotation _ _ _ _ (sin_sq_add_cos_sq ε) (cos_pos_of_abs_lt hβ)]
  unfold dir
  rw [rotX_vec]

end Verif.Props
