import Verif.Lemmas.Orbits
import Verif.Props.Kepler
import Mathlib.Analysis.Real.Sqrt

/-! Properties C41–C43: passages through the nodes, parabolic and near-parabolic motion. -/

namespace Verif.Props

open Verif.Go Real Verif.Model.Orbits Verif.Model.Kepler Verif.Lemmas

/-- The eccentric anomaly of package node is the one that package kepler turns back into the true anomaly. -/
theorem node_el (ν axis ecc timeP : ℝ) (h0 : 0 ≤ ecc) (h1 : ecc < 1) (ha : 0 < axis) (hν : cos (ν / 2) ≠ 0) :
    ∃ E, |E| < π ∧ K / axis ^ (3 / 2 : ℝ) * ((el ν axis ecc timeP).1 - timeP) = E - ecc * sin E ∧
      (el ν axis ecc timeP).2 = Radius E ecc axis ∧
      cos (TrueAnom E ecc) = cos ν ∧ sin (TrueAnom E ecc) = sin ν := by
  refine ⟨elE ν ecc, ?_, ?_, rfl, ?_⟩
  · unfold elE
    rw [abs_lt]
    constructor
    · linarith [neg_pi_div_two_lt_arctan (sqrt ((1 - ecc) / (1 + ecc)) * tan (ν * 0.5))]
    · linarith [arctan_lt_pi_div_two (sqrt ((1 - ecc) / (1 + ecc)) * tan (ν * 0.5))]
  · unfold el
    dsimp only
    rw [add_sub_cancel_left]
    have hp : axis ^ (3 / 2 : ℝ) = axis * sqrt axis := by
      rw [show (3 / 2 : ℝ) = 1 + 1 / 2 by norm_num, rpow_add ha, rpow_one, ← sqrt_eq_rpow]
    have hs : 0 < sqrt axis := sqrt_pos.2 ha
    have hK : (0 : ℝ) < K := by unfold K; norm_num
    rw [hp]
    field_simp
  · have hν' : cos (ν * 0.5) ≠ 0 := by rwa [show ν * 0.5 = ν / 2 by ring]
    have e1 : TrueAnom (elE ν ecc) ecc = 2 * arctan (tan (ν * 0.5)) := by
      unfold TrueAnom elE
      rw [show ∀ x : ℝ, 2 * x * 0.5 = x from fun x => by ring, tan_arctan, ← mul_assoc, ← sqrt_mul (by apply div_nonneg <;> linarith)]
      have : (1 + ecc) / (1 - ecc) * ((1 - ecc) / (1 + ecc)) = 1 := by
        have h2 : (1 - ecc) ≠ 0 := by linarith
        have h3 : (1 + ecc) ≠ 0 := by linarith
        field_simp
      rw [this, sqrt_one, one_mul]
    rw [e1]
    obtain ⟨c, s⟩ := cos_two_arctan_tan hν'
    rw [c, s]
    rw [show 2 * (ν * 0.5) = ν by ring]
    exact ⟨rfl, rfl⟩

/-- C41.  At the returned time the body with mean anomaly `n (t - T)`, `n = K a^(-3/2)`, is in the ascending node, that is
its argument of latitude `v + ω` is zero up to full turns, and the returned distance is its radius vector.  The passage
is the one nearest to perihelion. -/
theorem C41_elliptic_ascending (axis ecc argP timeP : ℝ) (h0 : 0 ≤ ecc) (h1 : ecc < 1) (ha : 0 < axis)
    (hω : cos (argP / 2) ≠ 0) :
    ∃ E, |E| < π ∧
      K / axis ^ (3 / 2 : ℝ) * ((EllipticAscending axis ecc argP timeP).1 - timeP) = E - ecc * sin E ∧
      sin (TrueAnom E ecc + argP) = 0 ∧ cos (TrueAnom E ecc + argP) = 1 ∧
      (EllipticAscending axis ecc argP timeP).2 = Radius E ecc axis ∧
      (EllipticAscending axis ecc argP timeP).2 = axis * (1 - ecc ^ 2) / (1 + ecc * cos argP) := by
  obtain ⟨E, hE, hM, hr, hc, hs⟩ := node_el (-argP) axis ecc timeP h0 h1 ha (by rwa [neg_div, cos_neg])
  rw [cos_neg] at hc
  rw [sin_neg] at hs
  have hsc := sin_sq_add_cos_sq argP
  refine ⟨E, hE, hM, ?_, ?_, hr, ?_⟩
  · rw [sin_add, hc, hs]; ring
  · rw [cos_add, hc, hs]; linarith
  · have := (C40_true_radius E ecc axis h0 h1 hE).2.2
    have hd : 0 < 1 + ecc * cos argP := by nlinarith [neg_one_le_cos argP]
    rw [hc] at this
    rw [eq_div_iff hd.ne', ← this, ← hr]
    rfl

/-- C41, descending node: the argument of latitude is π. -/
theorem C41_elliptic_descending (axis ecc argP timeP : ℝ) (h0 : 0 ≤ ecc) (h1 : ecc < 1) (ha : 0 < axis)
    (hω : sin (argP / 2) ≠ 0) :
    ∃ E, |E| < π ∧
      K / axis ^ (3 / 2 : ℝ) * ((EllipticDescending axis ecc argP timeP).1 - timeP) = E - ecc * sin E ∧
      sin (TrueAnom E ecc + argP) = 0 ∧ cos (TrueAnom E ecc + argP) = -1 ∧
      (EllipticDescending axis ecc argP timeP).2 = Radius E ecc axis ∧
      (EllipticDescending axis ecc argP timeP).2 = axis * (1 - ecc ^ 2) / (1 - ecc * cos argP) := by
  obtain ⟨E, hE, hM, hr, hc, hs⟩ := node_el (π - argP) axis ecc timeP h0 h1 ha
    (by rwa [sub_div, cos_pi_div_two_sub])
  rw [cos_pi_sub] at hc
  rw [sin_pi_sub] at hs
  have hsc := sin_sq_add_cos_sq argP
  refine ⟨E, hE, hM, ?_, ?_, hr, ?_⟩
  · rw [sin_add, hc, hs]; ring
  · rw [cos_add, hc, hs]; linarith
  · have := (C40_true_radius E ecc axis h0 h1 hE).2.2
    have hd : 0 < 1 - ecc * cos argP := by nlinarith [cos_le_one argP]
    rw [hc] at this
    rw [eq_div_iff hd.ne', show (1 : ℝ) - ecc * cos argP = 1 + ecc * -cos argP by ring, ← this, ← hr]
    rfl

example : cos ((1 : ℝ) / 2) ≠ 0 ∧ sin ((1 : ℝ) / 2) ≠ 0 :=
  ⟨(cos_pos_of_mem_Ioo ⟨by linarith [pi_gt_three], by linarith [pi_gt_three]⟩).ne',
   (sin_pos_of_pos_of_lt_pi (by norm_num) (by linarith [pi_gt_three])).ne'⟩

/-- C42.  `tan (v/2)` solves Barker's equation for the time since perihelion, it is the only solution, and
the distance is that of the parabola, both as `q (1+s²)` and as the conic equation. -/
theorem C42_parabolic (timeP q jde : ℝ) (hq : 0 < q) :
    let s := tan ((parabolicAD timeP q jde).1 / 2)
    s ^ 3 + 3 * s = 3 * K / (sqrt 2 * q ^ (3 / 2 : ℝ)) * (jde - timeP) ∧
    (∀ s', s' ^ 3 + 3 * s' = 3 * K / (sqrt 2 * q ^ (3 / 2 : ℝ)) * (jde - timeP) → s' = s) ∧
    -π < (parabolicAD timeP q jde).1 ∧ (parabolicAD timeP q jde).1 < π ∧
    (parabolicAD timeP q jde).2 = q * (1 + s ^ 2) ∧
    (parabolicAD timeP q jde).2 * (1 + cos (parabolicAD timeP q jde).1) = 2 * q := by
  dsimp only
  have hp : q ^ (3 / 2 : ℝ) = q * sqrt q := by
    rw [show (3 / 2 : ℝ) = 1 + 1 / 2 by norm_num, rpow_add hq, rpow_one, ← sqrt_eq_rpow]
  have hsq : 0 < sqrt q := sqrt_pos.2 hq
  unfold parabolicAD
  dsimp only
  obtain ⟨W, hW⟩ : ∃ W, W = 3 * K / sqrt 2 * (jde - timeP) / q / sqrt q := ⟨_, rfl⟩
  have hW' : 3 * K / (sqrt 2 * q ^ (3 / 2 : ℝ)) * (jde - timeP) = W := by
    rw [hW, hp]; field_simp
  rw [hW', ← hW]
  obtain ⟨R, hR⟩ : ∃ R, R = sqrt (W * 0.5 * (W * 0.5) + 1) := ⟨_, rfl⟩
  have hR0 : 0 ≤ R := hR ▸ sqrt_nonneg _
  have hR2 : R ^ 2 = W * 0.5 * (W * 0.5) + 1 := by rw [hR]; exact sq_sqrt (by nlinarith [mul_self_nonneg (W * 0.5)])
  have hpos : 0 < W * 0.5 + R := by
    by_contra hneg
    push Not at hneg
    nlinarith
  rw [← hR]
  have hY := cbrt_pos hpos
  have hY3 := cbrt_cube (W * 0.5 + R)
  set Y := cbrt (W * 0.5 + R)
  have hinv : (1 / Y) ^ 3 = R - W * 0.5 := by
    rw [div_pow, hY3, one_pow, div_eq_iff hpos.ne']; nlinarith
  obtain ⟨s, hs⟩ : ∃ s, s = Y - 1 / Y := ⟨_, rfl⟩
  have hbar : s ^ 3 + 3 * s = W := by
    have hYY : Y * (1 / Y) = 1 := by field_simp
    rw [hs]
    generalize 1 / Y = Z at *
    linear_combination hY3 - hinv - 3 * (Y - Z) * hYY
  rw [← hs]
  have ht : tan (2 * arctan s / 2) = s := by rw [mul_div_cancel_left₀ _ two_ne_zero, tan_arctan]
  rw [ht]
  refine ⟨hbar, fun s' h' => barker_unique (by rw [h', hbar]), ?_, ?_, by ring, ?_⟩
  · linarith [neg_pi_div_two_lt_arctan s]
  · linarith [arctan_lt_pi_div_two s]
  · have := one_add_cos_two_arctan s
    linear_combination q * this

/-- C42.  The motion is symmetric about perihelion. -/
theorem C42_symmetric (timeP q dt : ℝ) (hq : 0 < q) :
    (parabolicAD timeP q (timeP - dt)).1 = -(parabolicAD timeP q (timeP + dt)).1 ∧
    (parabolicAD timeP q (timeP - dt)).2 = (parabolicAD timeP q (timeP + dt)).2 := by
  obtain ⟨a1, a2, -, -, a3, -⟩ := C42_parabolic timeP q (timeP - dt) hq
  obtain ⟨b1, b2, -, -, b3, -⟩ := C42_parabolic timeP q (timeP + dt) hq
  have h := a2 (-(tan ((parabolicAD timeP q (timeP + dt)).1 / 2))) (by linear_combination -b1)
  have hat : ∀ j, (parabolicAD timeP q j).1 = 2 * arctan (tan ((parabolicAD timeP q j).1 / 2)) := by
    intro j; unfold parabolicAD; dsimp only; rw [mul_div_cancel_left₀ _ two_ne_zero, tan_arctan]
  constructor
  · rw [hat (timeP - dt), hat (timeP + dt), ← h, arctan_neg]; ring
  · rw [a3, b3, ← h]; ring

theorem K_const : |27.403895 * (3 * K / sqrt 2) - 1| < 2e-8 := by
  have h2 : sqrt 2 ^ 2 = 2 := sq_sqrt (by norm_num)
  have h0 : 0 < sqrt 2 := by positivity
  have l1 : (1.41421356237 : ℝ) < sqrt 2 := by
    apply lt_sqrt_of_sq_lt; norm_num
  have l2 : sqrt 2 < 1.41421356238 := by
    rw [sqrt_lt' (by norm_num)]; norm_num
  unfold K
  have e : 27.403895 * (3 * 0.01720209895 / sqrt 2) - 1 = (27.403895 * 3 * 0.01720209895 - sqrt 2) / sqrt 2 := by
    field_simp
  rw [e, abs_lt, lt_div_iff₀ h0, div_lt_iff₀ h0]
  norm_num at l1 l2 ⊢
  constructor <;> linarith

theorem node_pa (ν q timeP : ℝ) (hq : 0 < q) (hν : cos (ν / 2) ≠ 0) :
    (pa ν q timeP).2 = 2 * q / (1 + cos ν) ∧
    |tan ((parabolicAD timeP q (pa ν q timeP).1).1 / 2) - tan (ν / 2)| ≤ 3e-8 * |tan (ν / 2)| := by
  constructor
  · unfold pa
    dsimp only
    rw [show ν * 0.5 = ν / 2 by ring, tan_eq_sin_div_cos]
    have h1 : 1 + cos ν = 2 * cos (ν / 2) ^ 2 := by
      have := cos_two_mul (ν / 2)
      rw [mul_div_cancel₀ _ two_ne_zero] at this
      linarith
    rw [h1]
    field_simp
    linarith [sin_sq_add_cos_sq (ν / 2)]
  · obtain ⟨a1, -, -⟩ := C42_parabolic timeP q (pa ν q timeP).1 hq
    generalize tan ((parabolicAD timeP q (pa ν q timeP).1).1 / 2) = s at *
    have hp : q ^ (3 / 2 : ℝ) = q * sqrt q := by
      rw [show (3 / 2 : ℝ) = 1 + 1 / 2 by norm_num, rpow_add hq, rpow_one, ← sqrt_eq_rpow]
    have hsq : 0 < sqrt q := sqrt_pos.2 hq
    rw [show (pa ν q timeP).1 = timeP + 27.403895 * tan (ν * 0.5) * (tan (ν * 0.5) * tan (ν * 0.5) + 3) * q * sqrt q from rfl,
      show ν * 0.5 = ν / 2 by ring, add_sub_cancel_left] at a1
    generalize tan (ν / 2) = u at *
    have hc := K_const
    obtain ⟨ε, hε⟩ : ∃ ε, ε = 27.403895 * (3 * K / sqrt 2) - 1 := ⟨_, rfl⟩
    rw [← hε] at hc
    have a2 : s ^ 3 + 3 * s = (1 + ε) * (u ^ 3 + 3 * u) := by
      rw [a1, hε, hp]; field_simp; ring
    have a3 : (s - u) * (s ^ 2 + s * u + u ^ 2 + 3) = ε * (u * (u ^ 2 + 3)) := by linear_combination a2
    have hA : 3 / 4 * (u ^ 2 + 3) ≤ s ^ 2 + s * u + u ^ 2 + 3 := by nlinarith [sq_nonneg (s + u / 2)]
    have hB : 0 < u ^ 2 + 3 := by positivity
    have a4 : |s - u| * (s ^ 2 + s * u + u ^ 2 + 3) = |ε| * (|u| * (u ^ 2 + 3)) := by
      rw [← abs_of_pos (show 0 < s ^ 2 + s * u + u ^ 2 + 3 by linarith), ← abs_mul, a3, abs_mul, abs_mul, abs_of_pos hB]
    have a5 : |s - u| * (3 / 4 * (u ^ 2 + 3)) ≤ 2e-8 * (|u| * (u ^ 2 + 3)) := by
      refine (mul_le_mul_of_nonneg_left hA (abs_nonneg _)).trans ?_
      rw [a4]
      exact mul_le_mul_of_nonneg_right hc.le (by positivity)
    have a6 : (|s - u| * (3 / 4)) * (u ^ 2 + 3) ≤ (2e-8 * |u|) * (u ^ 2 + 3) := by linarith
    have a7 := le_of_mul_le_mul_right a6 hB
    norm_num at a7 ⊢
    linarith [abs_nonneg u]

/-- C41, parabolic orbit, ascending node.  The distance is that of the conic at true anomaly -ω, and package
parabolic at the returned time gives that true anomaly to within a relative 3·10⁻⁸ in tan (v/2). -/
theorem C41_parabolic_ascending (q argP timeP : ℝ) (hq : 0 < q) (hω : cos (argP / 2) ≠ 0) :
    (ParabolicAscending q argP timeP).2 = 2 * q / (1 + cos argP) ∧
    |tan ((parabolicAD timeP q (ParabolicAscending q argP timeP).1).1 / 2) - tan (-argP / 2)| ≤ 3e-8 * |tan (-argP / 2)| := by
  have := node_pa (-argP) q timeP hq (by rwa [neg_div, cos_neg])
  rwa [cos_neg] at this

/-- C41, parabolic orbit, descending node. -/
theorem C41_parabolic_descending (q argP timeP : ℝ) (hq : 0 < q) (hω : sin (argP / 2) ≠ 0) :
    (ParabolicDescending q argP timeP).2 = 2 * q / (1 - cos argP) ∧
    |tan ((parabolicAD timeP q (ParabolicDescending q argP timeP).1).1 / 2) - tan ((π - argP) / 2)| ≤
      3e-8 * |tan ((π - argP) / 2)| := by
  have := node_pa (π - argP) q timeP hq (by rwa [sub_div, cos_pi_div_two_sub])
  rwa [cos_pi_sub, ← sub_eq_add_neg] at this

/-- The starting value solves the cubic of the parabola. -/
theorem startS_barker (m t : ℝ) (hm0 : 0 < m) (ht : t ≠ 0) :
    startS (m * t) t ^ 3 + 3 * startS (m * t) t = 3 * (m * t) := by
  have hx : 0 < |m * t| := abs_pos.2 (mul_ne_zero hm0.ne' ht)
  obtain ⟨u, hu⟩ : ∃ u, u = tan (arctan (2 / (3 * |m * t|)) / 2) := ⟨_, rfl⟩
  have hs0 : 0 < 2 / (3 * |m * t|) := by positivity
  have ha0 := arctan_pos.2 hs0
  have ha1 := arctan_lt_pi_div_two (2 / (3 * |m * t|))
  have hu0 : 0 < u := by rw [hu]; apply tan_pos_of_pos_of_lt_pi_div_two <;> linarith
  have hu1 : u < 1 := by
    rw [hu, ← tan_pi_div_four]
    apply tan_lt_tan_of_lt_of_lt_pi_div_two <;> linarith
  have htan2 : 2 * u / (1 - u ^ 2) = 2 / (3 * |m * t|) := by
    rw [hu, ← tan_two_mul, mul_div_cancel₀ _ two_ne_zero, tan_arctan]
  have hrel : 1 - u ^ 2 = 3 * |m * t| * u := by
    have h1u : (1 : ℝ) - u ^ 2 ≠ 0 := by nlinarith
    field_simp at htan2
    linarith
  have hc0 := cbrt_pos hu0
  have hc3 := cbrt_cube u
  set c := cbrt u with hc
  have hcne : 1 - c ^ 2 ≠ 0 := by
    intro h
    have : c = 1 := by nlinarith
    rw [this] at hc3; linarith
  have hval : 2 / tan (2 * arctan c) = 1 / c - c := by
    rw [tan_two_mul, tan_arctan]; field_simp
  have hcube : (1 / c - c) ^ 3 + 3 * (1 / c - c) = 3 * |m * t| := by
    have e1 : (1 / c - c) ^ 3 + 3 * (1 / c - c) = 1 / c ^ 3 - c ^ 3 := by field_simp; ring
    rw [e1, hc3]; field_simp; linarith
  unfold startS
  dsimp only
  rw [← hu, ← hc, hval]
  split_ifs with hneg
  · rw [abs_of_neg (mul_neg_of_pos_of_neg hm0 hneg)] at hcube
    linear_combination -hcube
  · rw [abs_of_nonneg (mul_nonneg hm0.le (not_lt.1 hneg))] at hcube
    linear_combination hcube

/-- C43.  With eccentricity exactly 1 the near-parabolic routine returns the true anomaly of the parabolic routine,
reduced to [0, 2π), and the same distance, for every time, in any number of steps. -/
theorem C43_nearparabolic_limit (steps : ℕ) (timeP q jde : ℝ) (hq : 0 < q) :
    nearparabolicAD steps timeP q 1 jde =
      .ok (if (parabolicAD timeP q jde).1 < 0 then (parabolicAD timeP q jde).1 + 2 * π else (parabolicAD timeP q jde).1)
        (parabolicAD timeP q jde).2 := by
  obtain ⟨b1, b2, -, -, b3, b4⟩ := C42_parabolic timeP q jde hq
  have hat : (parabolicAD timeP q jde).1 = 2 * arctan (tan ((parabolicAD timeP q jde).1 / 2)) := by
    unfold parabolicAD; dsimp only; rw [mul_div_cancel_left₀ _ two_ne_zero, tan_arctan]
  unfold nearparabolicAD
  dsimp only
  have hp : q ^ (3 / 2 : ℝ) = q * sqrt q := by
    rw [show (3 / 2 : ℝ) = 1 + 1 / 2 by norm_num, rpow_add hq, rpow_one, ← sqrt_eq_rpow]
  have hsq : 0 < sqrt q := sqrt_pos.2 hq
  have hsqq : sqrt q ^ 2 = q := sq_sqrt hq.le
  have h2 : sqrt 2 ^ 2 = 2 := sq_sqrt (by norm_num)
  have h20 : 0 < sqrt 2 := by positivity
  have hK : (0 : ℝ) < K := by unfold K; norm_num
  split_ifs with ht h1 h1
  · -- at perihelion
    have : tan ((parabolicAD timeP q jde).1 / 2) = 0 := by
      symm; apply b2; rw [ht]; ring
    rw [this, arctan_zero, mul_zero] at hat
    rw [hat, lt_self_iff_false] at h1
    exact h1.elim
  · have : tan ((parabolicAD timeP q jde).1 / 2) = 0 := by
      symm; apply b2; rw [ht]; ring
    rw [b3, this]
    rw [this, arctan_zero, mul_zero] at hat
    rw [hat]; simp
  all_goals first | exact absurd rfl h1 | skip
  all_goals
    have hs : startS (K * sqrt ((1 + 1) / q) / (2 * q) * (jde - timeP)) (jde - timeP) = tan ((parabolicAD timeP q jde).1 / 2) := by
      have hq1 : K * sqrt ((1 + 1) / q) / (2 * q) = K / (sqrt 2 * (q * sqrt q)) := by
        rw [sqrt_div (by norm_num), show (1 : ℝ) + 1 = 2 by norm_num]
        field_simp
        linear_combination h2
      rw [hq1]
      apply b2
      rw [hp]
      obtain ⟨m, hm⟩ : ∃ m, m = K / (sqrt 2 * (q * sqrt q)) := ⟨_, rfl⟩
      have hm0 : 0 < m := hm ▸ by positivity
      have hm3 : 3 * K / (sqrt 2 * (q * sqrt q)) = 3 * m := by rw [hm]; ring
      rw [hm3, ← hm]
      rw [startS_barker m (jde - timeP) hm0 ht]; ring
    unfold finish
    dsimp only
    rw [hs, ← hat]
    have hr : q * (1 + 1) / (1 + 1 * cos (parabolicAD timeP q jde).1) = (parabolicAD timeP q jde).2 := by
      have hne : (1 : ℝ) + 1 * cos (parabolicAD timeP q jde).1 ≠ 0 := by
        intro h
        rw [one_mul] at h
        rw [h] at b4; linarith
      rw [div_eq_iff hne]; linarith
    rw [hr]
    first | rw [if_pos (by assumption)] | rw [if_neg (by assumption)]

end Verif.Props
