import Verif.Lemmas.Kepler
import Verif.Props.Iterate
import Mathlib.Analysis.Real.Pi.Bounds

/-! Properties C37–C40, C80: Kepler's equation. -/

namespace Verif.Props

open Verif.Go Real Verif.Model.Iterate Verif.Model.Kepler Verif.Lemmas

/-- C37.  Kepler3 returns an angle in [-π, π] within (π/2)/2⁵³ of the exact solution of Kepler's equation for
the mean anomaly up to full turns. -/
theorem C37_kepler3 (e M : ℝ) (h0 : 0 ≤ e) (h1 : e < 1) :
    -π ≤ Kepler3 e M ∧ Kepler3 e M ≤ π ∧
    ∃ (E : ℝ) (k : ℤ), E - e * sin E = M + k * (2 * π) ∧ |Kepler3 e M - E| ≤ π / 2 / 2 ^ 53 := by
  obtain ⟨m0, m1, k, hk⟩ := mod1_eq M
  have hπ := pi_pos
  have hw : 2 * (π * 0.25) / 2 ^ 53 = π / 2 / 2 ^ 53 := by ring
  unfold Kepler3
  dsimp only
  split_ifs with hgt
  · obtain ⟨E, hE0, hE1, hE⟩ := kepler_exists (e := e) (MR := 2 * π - mod1 M) (by linarith) (by linarith)
    obtain ⟨r0, r1⟩ := kepler3Loop_range e (2 * π - mod1 M) 53 (π * 0.5) (π * 0.25) (by positivity) (by norm_num; linarith) (by norm_num; linarith)
    refine ⟨by linarith, by linarith, -E, -k - 1, ?_, ?_⟩
    · rw [sin_neg]; push_cast; linarith
    · have := kepler3Loop_spec h0 h1 hE 53 (π * 0.5) (π * 0.25) (by rw [abs_le]; constructor <;> norm_num <;> linarith)
      rw [hw] at this
      rw [show ∀ x : ℝ, -x - -E = -(x - E) from fun x => by ring, abs_neg]
      exact this
  · obtain ⟨E, hE0, hE1, hE⟩ := kepler_exists (e := e) (MR := mod1 M) m0 (by linarith)
    obtain ⟨r0, r1⟩ := kepler3Loop_range e (mod1 M) 53 (π * 0.5) (π * 0.25) (by positivity) (by norm_num; linarith) (by norm_num; linarith)
    refine ⟨by linarith, by linarith, E, -k, ?_, ?_⟩
    · push_cast; linarith
    · have := kepler3Loop_spec h0 h1 hE 53 (π * 0.5) (π * 0.25) (by rw [abs_le]; constructor <;> norm_num <;> linarith)
      rw [hw] at this
      exact this

theorem decimalPlaces_fst {better : ℝ → ℝ} {start : ℝ} {places maxIter : ℤ} {r : ℝ}
    (h : (DecimalPlaces better start places maxIter).1 = some r) :
    ∃ k : ℕ, (k : ℤ) < maxIter ∧ r = better (better^[k] start) ∧ |r - better^[k] start| < (10 : ℝ) ^ (-places) := by
  obtain ⟨k, h1, -, h3, h4, -⟩ := (C34_decimalPlaces better start places maxIter).1 r _ (by rw [← h])
  rw [Function.iterate_succ_apply'] at h3 h4
  exact ⟨k, h1, h3, by rw [h3]; exact h4⟩

/-- C38.  A result of Kepler1 satisfies Kepler's equation to e·10^-places. -/
theorem C38_kepler1_accuracy (e M : ℝ) (h0 : 0 ≤ e) (places : ℤ) (E : ℝ) (h : Kepler1 e M places = some E) :
    |E - e * sin E - M| ≤ e * (10 : ℝ) ^ (-places) := by
  obtain ⟨k, -, h3, h4⟩ := decimalPlaces_fst h
  set s := (fun E0 => M + e * sin E0)^[k] M
  have h3 : E = M + e * sin s := h3
  have e1 : E - e * sin E - M = e * (sin s - sin E) := by rw [h3]; ring
  rw [e1, abs_mul, abs_of_nonneg h0]
  refine mul_le_mul_of_nonneg_left ?_ h0
  have := abs_sin_sub_sin_le s E
  rw [abs_sub_comm] at h4
  linarith

/-- C38.  Kepler1 succeeds for all eccentricities up to 0.63, any mean anomaly and any precision. -/
theorem C38_kepler1_converges (e M : ℝ) (h0 : 0 ≤ e) (h1 : e ≤ 0.63) (places : ℤ) (hp : 1 ≤ places) :
    ∃ E, Kepler1 e M places = some E := by
  unfold Kepler1
  by_contra hne
  have hnone : (DecimalPlaces (fun E0 => M + e * sin E0) M places (places * 5)).1 = none := by
    cases h : (DecimalPlaces (fun E0 => M + e * sin E0) M places (places * 5)).1 with
    | none => rfl
    | some E => exact absurd ⟨E, h⟩ hne
  obtain ⟨-, hall⟩ := (C34_decimalPlaces (fun E0 => M + e * sin E0) M places (places * 5)).2 _ (by rw [← hnone])
  set f := fun E0 => M + e * sin E0 with hf
  have hstep : ∀ j : ℕ, |f^[j + 1] M - f^[j] M| ≤ e ^ (j + 1) := by
    intro j
    induction j with
    | zero =>
      simp only [zero_add, Function.iterate_one, Function.iterate_zero, id, hf, pow_one]
      rw [add_sub_cancel_left, abs_mul, abs_of_nonneg h0]
      exact mul_le_of_le_one_right h0 (abs_sin_le_one M)
    | succ j ih =>
      rw [Function.iterate_succ_apply' f (j + 1), Function.iterate_succ_apply' f j]
      rw [Function.iterate_succ_apply' f j] at ih
      set s := f^[j] M
      have : f (f s) - f s = e * (sin (f s) - sin s) := by simp only [hf]; ring
      rw [this, abs_mul, abs_of_nonneg h0, pow_succ, mul_comm (e ^ (j + 1))]
      exact mul_le_mul_of_nonneg_left ((abs_sin_sub_sin_le _ _).trans ih) h0
  obtain ⟨p, rfl⟩ : ∃ p : ℕ, places = p := ⟨places.toNat, by omega⟩
  have hp' : 1 ≤ p := by exact_mod_cast hp
  refine hall (p * 5 - 1) (by omega) (lt_of_le_of_lt (hstep _) ?_)
  rw [show p * 5 - 1 + 1 = 5 * p by omega, pow_mul, zpow_neg, zpow_natCast, ← inv_pow]
  apply pow_lt_pow_left₀ _ (by positivity) (by omega)
  have := pow_le_pow_left₀ h0 h1 5
  norm_num at this ⊢
  linarith

example : ∃ E, Kepler1 0.1 (5 * π / 180) 6 = some E := C38_kepler1_converges 0.1 _ (by norm_num) (by norm_num) 6 (by norm_num)

/-- C39.  A result of Kepler2 satisfies Kepler's equation to the square of the requested precision. -/
theorem C39_kepler2 (e M : ℝ) (h0 : 0 ≤ e) (h1 : e < 1) (places : ℤ) (E : ℝ) (h : Kepler2 e M places = some E) :
    |E - e * sin E - M| ≤ e * ((10 : ℝ) ^ (-places)) ^ 2 := by
  obtain ⟨k, hk, h3, h4⟩ := decimalPlaces_fst h
  set s := (fun E0 => E0 + (M + e * sin E0 - E0) / (1 - e * cos E0))^[k] M
  have h3 : E = s + (M + e * sin s - s) / (1 - e * cos s) := h3
  have hle : (10 : ℝ) ^ (-places) ≤ 1 := zpow_le_one_of_nonpos₀ (by norm_num) (by omega)
  obtain ⟨d, hd⟩ : ∃ d, d = (M + e * sin s - s) / (1 - e * cos s) := ⟨_, rfl⟩
  rw [← hd] at h3
  rw [h3, add_sub_cancel_left] at h4
  have := newton_residual h0 h1 (by linarith) hd
  rw [h3]
  refine this.trans (mul_le_mul_of_nonneg_left ?_ h0)
  rw [← sq_abs]
  exact pow_le_pow_left₀ (abs_nonneg d) h4.le 2

example : Kepler2 0.9 π 3 = some π := by
  unfold Kepler2 DecimalPlaces
  rw [show (3 : ℤ).toNat = 2 + 1 by rfl, decimalLoop]
  norm_num

/-- C39.  The same holds for Kepler2b. -/
theorem C39_kepler2b (e M : ℝ) (h0 : 0 ≤ e) (h1 : e < 1) (places : ℤ) (E : ℝ) (h : Kepler2b e M places = some E) :
    |E - e * sin E - M| ≤ e * ((10 : ℝ) ^ (-places)) ^ 2 := by
  obtain ⟨k, hk, h3, h4⟩ := decimalPlaces_fst h
  set s := (step2b e M)^[k] M
  have hle : (10 : ℝ) ^ (-places) ≤ 1 / 10 := by
    have : (10 : ℝ) ^ (-places) ≤ (10 : ℝ) ^ (-1 : ℤ) := zpow_le_zpow_right₀ (by norm_num) (by omega)
    rw [zpow_neg_one] at this
    linarith
  obtain ⟨d, hd⟩ : ∃ d, d = (M + e * sin s - s) / (1 - e * cos s) := ⟨_, rfl⟩
  simp only [step2b, ← hd] at h3
  have h5 : E = s + d := by
    split_ifs at h3 with g1 g2
    · rw [h3, add_sub_cancel_left] at h4; norm_num [abs_of_pos] at h4 hle; linarith
    · rw [h3, add_sub_cancel_left, abs_neg] at h4; norm_num [abs_of_pos] at h4 hle; linarith
    · exact h3
  rw [h5, add_sub_cancel_left] at h4
  have := newton_residual h0 h1 (by linarith) hd
  rw [h5]
  refine this.trans (mul_le_mul_of_nonneg_left ?_ h0)
  rw [← sq_abs]
  exact pow_le_pow_left₀ (abs_nonneg d) h4.le 2

/-- C39 (partial).  For Kepler2a the last Newton correction was within 10^-places of a multiple of π; if it
was less than a quarter turn, the result satisfies Kepler's equation as for Kepler2.
Missing: the correction may have been near ±π, ±2π …, which `Asin(Sin())` folds to 0. -/
theorem C39_kepler2a_partial (e M : ℝ) (h0 : 0 ≤ e) (h1 : e < 1) (places : ℤ) (E : ℝ) (h : Kepler2a e M places = some E) :
    ∃ s d : ℝ, d = (M + e * sin s - s) / (1 - e * cos s) ∧ |arcsin (sin d)| < (10 : ℝ) ^ (-places) ∧
      E = s + arcsin (sin d) ∧
      (|d| ≤ π / 2 → |E - e * sin E - M| ≤ e * ((10 : ℝ) ^ (-places)) ^ 2) := by
  obtain ⟨k, hk, h3, h4⟩ := decimalPlaces_fst h
  set s := (fun E0 => E0 + arcsin (sin ((M + e * sin E0 - E0) / (1 - e * cos E0))))^[k] M
  have h3 : E = s + arcsin (sin ((M + e * sin s - s) / (1 - e * cos s))) := h3
  have hle : (10 : ℝ) ^ (-places) ≤ 1 := zpow_le_one_of_nonpos₀ (by norm_num) (by omega)
  obtain ⟨d, hd⟩ : ∃ d, d = (M + e * sin s - s) / (1 - e * cos s) := ⟨_, rfl⟩
  rw [← hd] at h3
  rw [h3, add_sub_cancel_left] at h4
  refine ⟨s, d, hd, h4, h3, fun hq => ?_⟩
  rw [abs_le] at hq
  rw [arcsin_sin (by linarith [hq.1]) hq.2] at h3 h4
  have := newton_residual h0 h1 (by linarith) hd
  rw [h3]
  refine this.trans (mul_le_mul_of_nonneg_left ?_ h0)
  rw [← sq_abs]
  exact pow_le_pow_left₀ (abs_nonneg d) h4.le 2

/-- C39, violation for Kepler2a: for the eccentricity e = π/√(1+π²) ≈ 0.953 and the mean anomaly arccos e, at every
precision, Kepler2a reports success with E = M, although the residual of Kepler's equation is π/(1+π²) > 0.2. -/
theorem C39_kepler2a_violation (places : ℤ) (hp : 1 ≤ places) :
    ∃ e M : ℝ, 0 ≤ e ∧ e < 1 ∧ Kepler2a e M places = some M ∧ 0.2 < |M - e * sin M - M| := by
  have hπ := pi_pos
  have hπ3 := pi_gt_three
  have hπ4 := pi_lt_four
  set q := sqrt (1 + π ^ 2) with hq
  have hq0 : 0 < q := sqrt_pos.2 (by positivity)
  have hqq : q ^ 2 = 1 + π ^ 2 := sq_sqrt (by positivity)
  have hlt : π < q := by
    rw [hq]; apply lt_sqrt_of_sq_lt; linarith
  set e := π / q with he
  have he0 : 0 ≤ e := by positivity
  have he1 : e < 1 := by rw [he, div_lt_one hq0]; exact hlt
  have hcos : cos (arccos e) = e := cos_arccos (by linarith) he1.le
  have hsin : sin (arccos e) = 1 / q := by
    rw [sin_arccos]
    have : 1 - e ^ 2 = (1 / q) ^ 2 := by rw [he]; field_simp; linarith
    rw [this, sqrt_sq (by positivity)]
  have hd : (arccos e + e * sin (arccos e) - arccos e) / (1 - e * cos (arccos e)) = π := by
    rw [hcos, hsin, he]
    have : 1 - π / q * (π / q) = 1 / q ^ 2 := by field_simp; linarith
    rw [this]; field_simp; ring
  refine ⟨e, arccos e, he0, he1, ?_, ?_⟩
  · unfold Kepler2a DecimalPlaces
    obtain ⟨n, hn⟩ : ∃ n, (places * 5).toNat = n + 1 := ⟨(places * 5).toNat - 1, by omega⟩
    rw [hn, decimalLoop]
    dsimp only
    rw [hd, sin_pi, arcsin_zero, add_zero, sub_self, abs_zero, if_pos (by positivity)]
  · rw [show arccos e - e * sin (arccos e) - arccos e = -(e * sin (arccos e)) by ring, abs_neg, hsin, he,
      abs_of_pos (by positivity), show π / q * (1 / q) = π / (1 + π ^ 2) by rw [← hqq]; field_simp]
    rw [lt_div_iff₀ (by positivity)]
    nlinarith

/-- C40.  Position in the orbit: the polar coordinates given by `Radius` and `True` are the Cartesian
coordinates of the ellipse with eccentric anomaly E, and the conic equation holds. -/
theorem C40_true_radius (E e a : ℝ) (h0 : 0 ≤ e) (h1 : e < 1) (hE : |E| < π) :
    Radius E e a * cos (TrueAnom E e) = a * (cos E - e) ∧
    Radius E e a * sin (TrueAnom E e) = a * (sqrt (1 - e ^ 2) * sin E) ∧
    Radius E e a * (1 + e * cos (TrueAnom E e)) = a * (1 - e ^ 2) := by
  rw [abs_lt] at hE
  have hc : 0 < cos (E * 0.5) := cos_pos_of_mem_Ioo ⟨by norm_num; linarith, by norm_num; linarith⟩
  set c := cos (E * 0.5) with hcd
  set s := sin (E * 0.5) with hsd
  have hcs : s ^ 2 + c ^ 2 = 1 := sin_sq_add_cos_sq _
  have hcosE : cos E = c ^ 2 - s ^ 2 := by
    have h2E : E = 2 * (E * 0.5) := by ring
    rw [h2E, cos_two_mul, ← hcd]; linarith
  have hsinE : sin E = 2 * s * c := by
    have h2E : E = 2 * (E * 0.5) := by ring
    rw [h2E, sin_two_mul]
  have h1e : 0 < 1 - e := by linarith
  set w := sqrt ((1 + e) / (1 - e)) with hw
  have hw2 : w ^ 2 = (1 + e) / (1 - e) := sq_sqrt (by positivity)
  have hw3 : sqrt (1 - e ^ 2) = w * (1 - e) := by
    have : 1 - e ^ 2 = (w * (1 - e)) ^ 2 := by rw [mul_pow, hw2]; field_simp; ring
    rw [this, sqrt_sq (by positivity)]
  set t := w * tan (E * 0.5) with ht
  have htan : tan (E * 0.5) = s / c := tan_eq_sin_div_cos _
  have ht2 : 1 + t ^ 2 = (1 - e * cos E) / ((1 - e) * c ^ 2) := by
    rw [ht, mul_pow, hw2, htan, hcosE]
    have : s ^ 2 = 1 - c ^ 2 := by linarith
    field_simp
    rw [this]; ring
  have hden : 0 < 1 - e * cos E := by nlinarith [cos_le_one E]
  have hcos : cos (TrueAnom E e) = (cos E - e) / (1 - e * cos E) := by
    unfold TrueAnom
    rw [← ht, cos_two_mul, cos_sq_arctan, ht2, hcosE]
    rw [hcosE] at hden
    have : s ^ 2 = 1 - c ^ 2 := by linarith
    field_simp
    rw [this]; ring
  have hsin : sin (TrueAnom E e) = sqrt (1 - e ^ 2) * sin E / (1 - e * cos E) := by
    unfold TrueAnom
    rw [← ht, sin_two_mul, sin_arctan, cos_arctan]
    have : 2 * (t / sqrt (1 + t ^ 2)) * (1 / sqrt (1 + t ^ 2)) = 2 * t / (1 + t ^ 2) := by
      have : sqrt (1 + t ^ 2) * sqrt (1 + t ^ 2) = 1 + t ^ 2 := mul_self_sqrt (by positivity)
      have hpos : 0 < 1 + t ^ 2 := by positivity
      rw [mul_assoc, div_mul_div_comm, this]; field_simp
    rw [this, ht2, ht, htan, hw3, hsinE]
    field_simp
  unfold Radius
  rw [hcos, hsin]
  refine ⟨?_, ?_, ?_⟩ <;> field_simp <;> ring

example : |(1 : ℝ)| < π := by rw [abs_one]; linarith [pi_gt_three]

/-- C80.  Kepler4 satisfies Kepler's equation, up to full turns, within `arcsin e - e`. -/
theorem C80_kepler4 (e M : ℝ) (h0 : 0 ≤ e) (h1 : e < 1) :
    ∃ k : ℤ, |Kepler4 e M - e * sin (Kepler4 e M) - (M + k * (2 * π))| ≤ arcsin e - e := by
  obtain ⟨p1, p2⟩ := atan2_polar (sin M) (cos M - e)
  unfold Kepler4
  set E := atan2 (sin M) (cos M - e) with hE
  set ρ := sqrt ((cos M - e) ^ 2 + sin M ^ 2) with hρ
  have hρ2 : ρ ^ 2 = (cos M - e) ^ 2 + sin M ^ 2 := sq_sqrt (by positivity)
  have hcs := sin_sq_add_cos_sq M
  have hpos : 0 < 1 - e * cos M := by nlinarith [cos_le_one M]
  have hρ0 : 0 < ρ := by
    rw [hρ, sqrt_pos]; nlinarith [sq_nonneg (cos M - e), cos_le_one M, sq_nonneg (sin M)]
  -- sine and cosine of E - M
  have hs : ρ * sin (E - M) = ρ * (e * sin E) := by
    rw [sin_sub]
    linear_combination (cos M - e) * p2 - sin M * p1
  have hs' : sin (E - M) = e * sin E := mul_left_cancel₀ hρ0.ne' hs
  have hc : ρ * cos (E - M) = 1 - e * cos M := by
    rw [cos_sub]
    linear_combination cos M * p1 + sin M * p2 + hcs
  have hc0 : 0 < cos (E - M) := by
    by_contra hneg
    push Not at hneg
    nlinarith
  -- reduce E - M to (-π, π]
  set δ := arcsin (sin (E - M)) with hδ
  have hδs : sin δ = sin (E - M) := sin_arcsin (neg_one_le_sin _) (sin_le_one _)
  have hδc : cos δ = cos (E - M) := by
    rw [hδ, cos_arcsin]
    have : 1 - sin (E - M) ^ 2 = cos (E - M) ^ 2 := by linarith [sin_sq_add_cos_sq (E - M)]
    rw [this, sqrt_sq hc0.le]
  obtain ⟨k, hk⟩ : ∃ k : ℤ, E - M = δ + k * (2 * π) := by
    have : ((E - M : ℝ) : Real.Angle) = (δ : Real.Angle) := by
      apply Real.Angle.cos_sin_inj hδc.symm hδs.symm
    rw [Real.Angle.angle_eq_iff_two_pi_dvd_sub] at this
    obtain ⟨k, hk⟩ := this
    exact ⟨k, by linarith⟩
  refine ⟨k, ?_⟩
  have hres : E - e * sin E - (M + k * (2 * π)) = δ - sin δ := by rw [hδs, hs']; linarith
  rw [hres]
  -- |δ| ≤ arcsin e
  have hsd : |sin δ| ≤ e := by
    rw [hδs, hs', abs_mul, abs_of_nonneg h0]
    exact mul_le_of_le_one_right h0 (abs_sin_le_one E)
  have hmono : ∀ x y : ℝ, 0 ≤ x → x ≤ y → x - sin x ≤ y - sin y := by
    intro x y hx hxy
    have := (le_abs_self _).trans (abs_sin_sub_sin_le y x)
    rw [abs_of_nonneg (by linarith)] at this
    linarith
  have hdr : δ ≤ arcsin e ∧ -arcsin e ≤ δ := by
    rw [abs_le, hδs] at hsd
    refine ⟨monotone_arcsin hsd.2, ?_⟩
    rw [← arcsin_neg]; exact monotone_arcsin hsd.1
  have hse : sin (arcsin e) = e := sin_arcsin (by linarith) h1.le
  rw [abs_le]
  rcases le_total 0 δ with hp | hn
  · have a1 := hmono δ (arcsin e) hp hdr.1
    have a2 := hmono 0 δ le_rfl hp
    rw [sin_zero] at a2
    rw [hse] at a1
    have a3 := hmono 0 (arcsin e) le_rfl (arcsin_nonneg.2 h0)
    rw [sin_zero, hse] at a3
    constructor <;> linarith
  · have a1 := hmono (-δ) (arcsin e) (by linarith) (by linarith)
    have a2 := hmono 0 (-δ) le_rfl (by linarith)
    rw [sin_neg] at a1
    rw [sin_zero, sin_neg] at a2
    rw [hse] at a1
    have a3 := hmono 0 (arcsin e) le_rfl (arcsin_nonneg.2 h0)
    rw [sin_zero, hse] at a3
    constructor <;> linarith

end Verif.Props
