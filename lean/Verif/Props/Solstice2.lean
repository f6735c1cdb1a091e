import Verif.Model.Solstice2
import Verif.Props.SolsticeSun
/-
C159: the loop of the accurate equinoxes and solstices.
-/
namespace Verif.Props

open Real Verif.Model Verif.Lemmas

/-- One correction divides the error by eleven. -/
theorem season_step {x κ : ℝ} (hx : |x| ≤ 1 / 2) (h1 : 0.951 ≤ κ) (h2 : κ ≤ 1.044) : |x - κ * sin x| ≤ 0.09 * |x| := by
  have pos : ∀ x : ℝ, 0 ≤ x → x ≤ 1 / 2 → |x - κ * sin x| ≤ 0.09 * x := by
    intro x h0 hx
    have s1 := sin_le h0
    have s2 := sin_ge_sub_cube h0
    have s0 : 0 ≤ sin x := sin_nonneg_of_nonneg_of_le_pi h0 (by linarith [pi_gt_three])
    have c1 : x ^ 3 ≤ x / 4 := by nlinarith [mul_nonneg h0 h0]
    rw [abs_le]
    constructor <;> nlinarith
  rcases le_total 0 x with h | h
  · rw [abs_of_nonneg h] at hx ⊢; exact pos x h hx
  · have := pos (-x) (by linarith) (by rw [abs_of_nonpos h] at hx; exact hx)
    rw [sin_neg, show -x - κ * -sin x = -(x - κ * sin x) by ring, abs_neg] at this
    rw [abs_of_nonpos h]
    exact this

/-- Small sines come from small angles. -/
theorem sin_small {x : ℝ} (hx : |x| ≤ 1 / 2) : 0.95 * |x| ≤ |sin x| := by
  have pos : ∀ x : ℝ, 0 ≤ x → x ≤ 1 / 2 → 0.95 * x ≤ |sin x| := by
    intro x h0 hx
    have s2 := sin_ge_sub_cube h0
    have c1 : x ^ 3 ≤ x / 4 := by nlinarith [mul_nonneg h0 h0]
    refine le_trans ?_ (le_abs_self _)
    linarith
  rcases le_total 0 x with h | h
  · rw [abs_of_nonneg h] at hx ⊢; exact pos x h hx
  · have := pos (-x) (by linarith) (by rw [abs_of_nonpos h] at hx; exact hx)
    rw [sin_neg, abs_neg] at this
    rw [abs_of_nonpos h]
    exact this

/-- The slope as a number, whatever the order of the instants. -/
theorem slope_num {L : ℝ → ℝ} {P : ℝ → Prop} (hs : ∀ s t, P s → P t → s ≤ t → 0.0164 * (t - s) ≤ L t - L s ∧ L t - L s ≤ 0.0180 * (t - s))
    {s t : ℝ} (h1 : P s) (h2 : P t) : ∃ ρ : ℝ, 0.0164 ≤ ρ ∧ ρ ≤ 0.0180 ∧ L t - L s = ρ * (t - s) := by
  have key : ∀ s t, P s → P t → s < t → ∃ ρ : ℝ, 0.0164 ≤ ρ ∧ ρ ≤ 0.0180 ∧ L t - L s = ρ * (t - s) := by
    intro s t h1 h2 h
    obtain ⟨a, b⟩ := hs s t h1 h2 h.le
    have hp : 0 < t - s := by linarith
    exact ⟨(L t - L s) / (t - s), by rw [le_div_iff₀ hp]; exact a, by rw [div_le_iff₀ hp]; exact b, by field_simp⟩
  rcases lt_trichotomy s t with h | h | h
  · exact key s t h1 h2 h
  · exact ⟨0.0164, le_refl _, by norm_num, by rw [h]; ring⟩
  · obtain ⟨ρ, a, b, c⟩ := key t s h2 h1 h
    exact ⟨ρ, a, b, by linarith⟩

/-- The loop from an instant near a root. -/
theorem season_loop (L f : ℝ → ℝ) (q t0 : ℝ) (hf : ∀ t, ∃ k : ℤ, f t = L t + k * (2 * π)) (hroot : ∃ k : ℤ, L t0 = q + k * (2 * π))
    (hs : ∀ s t, |s - t0| ≤ 60 → |t - t0| ≤ 60 → s ≤ t → 0.0164 * (t - s) ≤ L t - L s ∧ L t - L s ≤ 0.0180 * (t - s)) (n : ℕ) :
    ∀ J, |L J - L t0| ≤ 1 / 2 → |J - t0| ≤ 31 → 58 * |L J - L t0| * 0.09 ^ n < 0.000005 →
      ∃ J', Solstice.eq2loop f q (n + 1) J = some J' ∧ |J' - t0| ≤ 5e-7 := by
  have P0 : |t0 - t0| ≤ 60 := by simp
  induction n with
  | zero => ?_
  | succ n ih => ?_
  all_goals
    intro J hx hJ hn
    obtain ⟨k, hk⟩ := hf J
    obtain ⟨k0, hk0⟩ := hroot
    obtain ⟨x, hxd⟩ : ∃ x, x = L J - L t0 := ⟨_, rfl⟩
    rw [← hxd] at hx hn
    have hc : 58 * sin (q - f J) = -(58 * sin x) := by
      have : q - f J = -x + ((-(k + k0) : ℤ) : ℝ) * (2 * π) := by rw [hk, hxd]; push_cast; linarith
      rw [this, sin_add_int_mul_two_pi, sin_neg]; ring
    have hsx : |58 * sin x| ≤ 58 * |x| := by rw [abs_mul, abs_of_pos (by norm_num : (0 : ℝ) < 58)]; exact mul_le_mul_of_nonneg_left (abs_sin_le_abs) (by norm_num)
    -- the next instant
    obtain ⟨J1, hJ1⟩ : ∃ J1, J1 = J + 58 * sin (q - f J) := ⟨_, rfl⟩
    have hJ1d : J1 - J = -(58 * sin x) := by rw [hJ1, hc]; ring
    have hJ1t : |J1 - t0| ≤ 60 := by
      have e : J1 - t0 = (J - t0) + -(58 * sin x) := by rw [← hJ1d]; ring
      rw [e]
      refine (abs_add_le _ _).trans ?_
      rw [abs_neg]
      linarith
    obtain ⟨ρ, r1, r2, r3⟩ := slope_num (P := fun t => |t - t0| ≤ 60) hs (s := J) (t := J1) (hJ.trans (by norm_num)) hJ1t
    have hx1 : L J1 - L t0 = x - 58 * ρ * sin x := by rw [hJ1d] at r3; linarith
    have hx1' : |L J1 - L t0| ≤ 0.09 * |x| := by rw [hx1]; exact season_step hx (by linarith) (by linarith)
    obtain ⟨σ, p1, p2, p3⟩ := slope_num (P := fun t => |t - t0| ≤ 60) hs (s := t0) (t := J1) P0 hJ1t
    have hJx : |J1 - t0| * 0.0164 ≤ 0.09 * |x| := by
      rw [p3, abs_mul, abs_of_pos (by linarith)] at hx1'
      nlinarith [abs_nonneg (J1 - t0)]
    unfold Solstice.eq2loop
    dsimp only
    rw [← hJ1, hc, abs_neg]
    have stop : |58 * sin x| < 0.000005 → |J1 - t0| ≤ 5e-7 := by
      intro h
      have := sin_small hx
      rw [abs_mul, abs_of_pos (by norm_num : (0 : ℝ) < 58)] at h
      norm_num at *
      linarith
  · rw [if_pos (by rw [pow_zero] at hn; linarith)]
    exact ⟨J1, rfl, stop (by rw [pow_zero] at hn; linarith)⟩
  · by_cases h : |58 * sin x| < 0.000005
    · rw [if_pos h]; exact ⟨J1, rfl, stop h⟩
    · rw [if_neg h]
      refine ih J1 (hx1'.trans (by linarith)) ?_ ?_
      · linarith
      · rw [pow_succ] at hn
        have : (0 : ℝ) ≤ 0.09 ^ n := by positivity
        nlinarith

/-- A root near an instant where the function is near the value. -/
theorem season_root (L : ℝ → ℝ) (Q J : ℝ) (hs : ∀ s t, |s - J| ≤ 100 → |t - J| ≤ 100 → s ≤ t → 0.0164 * (t - s) ≤ L t - L s ∧ L t - L s ≤ 0.0180 * (t - s))
    {a : ℝ} (ha : a ≤ 1 / 2) (h : |L J - Q| ≤ a) : ∃ t0, L t0 = Q ∧ |t0 - J| * 0.0164 ≤ a := by
  have cont : ContinuousOn L (Set.Icc (J - 31) (J + 31)) := by
    have lip : LipschitzOnWith 1 L (Set.Icc (J - 31) (J + 31)) := by
      refine LipschitzOnWith.of_dist_le_mul ?_
      intro s hs' t ht'
      obtain ⟨ρ, r1, r2, r3⟩ := slope_num (P := fun t => |t - J| ≤ 100) hs (s := t) (t := s)
        (by rw [abs_le]; constructor <;> linarith [ht'.1, ht'.2]) (by rw [abs_le]; constructor <;> linarith [hs'.1, hs'.2])
      rw [Real.dist_eq, Real.dist_eq, r3, abs_mul, abs_of_pos (by linarith)]
      push_cast
      nlinarith [abs_nonneg (s - t)]
    exact lip.continuousOn
  obtain ⟨h1, h2⟩ := abs_le.1 h
  have e1 := hs (J - 31) J (by norm_num) (by norm_num) (by linarith)
  have e2 := hs J (J + 31) (by norm_num) (by norm_num) (by linarith)
  obtain ⟨t0, ht, hQ⟩ := intermediate_value_Icc (by linarith : J - 31 ≤ J + 31) cont (show Q ∈ Set.Icc (L (J - 31)) (L (J + 31)) by constructor <;> linarith)
  refine ⟨t0, hQ, ?_⟩
  obtain ⟨ρ, r1, r2, r3⟩ := slope_num (P := fun t => |t - J| ≤ 100) hs (s := J) (t := t0) (by norm_num) (by rw [abs_le]; constructor <;> linarith [ht.1, ht.2])
  have : |ρ * (t0 - J)| ≤ a := by rw [← r3, hQ, abs_sub_comm]; exact h
  rw [abs_mul, abs_of_pos (by linarith)] at this
  nlinarith [abs_nonneg (t0 - J)]

/-- What is asked of the theory of the Earth: its apparent longitude of the Sun, followed continuously, advances by 0.0164 to 0.0180 radians a day and stays within `η` radians of
`solar.ApparentLongitude`, from −1200 to 5200. -/
structure SunLike (e : ℝ → ℝ × ℝ × ℝ) (L : ℝ → ℝ) (η : ℝ) : Prop where
  lift : ∀ t, ∃ k : ℤ, (Solar.ApparentVSOP87 e t).1 = L t + k * (2 * π)
  slope : ∀ s t, |J2000Century s| ≤ 32 → |J2000Century t| ≤ 32 → s ≤ t → 0.0164 * (t - s) ≤ L t - L s ∧ L t - L s ≤ 0.0180 * (t - s)
  near : ∀ t, |J2000Century t| ≤ 32 → ∃ k : ℤ, |L t - Solar.ApparentLongitude (J2000Century t) - k * (2 * π)| ≤ η

theorem season2 {e : ℝ → ℝ × ℝ × ℝ} {L : ℝ → ℝ} {η : ℝ} (hL : SunLike e L η) (hη : η ≤ 0.4) {y : ℤ} {c : List ℝ} {q E : ℝ} (hE : E ≤ 0.0075) (h : MeanNear y c q E) :
    ∃ J t0 : ℝ, Solstice.eq2 y e q c 8 = some J ∧ (∃ k : ℤ, L t0 = q + k * (2 * π)) ∧ |J - t0| ≤ 5e-7 ∧ |J - Solstice.eq y c| ≤ 0.034 + 61 * η := by
  obtain ⟨hT, k, hm⟩ := h
  have hcorr := solstice_corr y c
  unfold Solstice.eq2
  obtain ⟨J0, hJ0⟩ : ∃ J0, J0 = hornerR ((y : ℝ) * 0.001) c := ⟨_, rfl⟩
  rw [← hJ0] at hT hm hcorr ⊢
  have hd : 0 < deg := by unfold deg; positivity
  have hd1 : deg ≤ 0.017454 := by have := pi_lt_d6; unfold deg; linarith
  have win : ∀ t, |t - J0| ≤ 100 → |J2000Century t| ≤ 32 := by
    intro t ht
    obtain ⟨a, b⟩ := abs_le.1 ht
    obtain ⟨a', b'⟩ := abs_le.1 hT
    have e : J2000Century t = J2000Century J0 + (t - J0) / 36525 := by unfold J2000Century; ring
    rw [e, abs_le]
    constructor <;> linarith
  obtain ⟨k1, h1⟩ := hL.near J0 (win J0 (by norm_num))
  obtain ⟨-, -, j, hj⟩ := Verif.Go.mod1_eq (Solar.meanLon (J2000Century J0) + Solar.center (J2000Century J0))
  unfold Solar.ApparentLongitude Solar.TrueLon at h1
  dsimp only at h1
  have hsn := abs_le.1 (abs_sin_le_one (Solar.node (J2000Century J0)))
  obtain ⟨a, ha⟩ : ∃ a, a = η + 0.000215 := ⟨_, rfl⟩
  have hx : |L J0 - (q + ((k - j + k1 : ℤ) : ℝ) * (2 * π))| ≤ a := by
    have hEd : E * deg ≤ 0.000131 := by nlinarith
    obtain ⟨m1, m2⟩ := abs_le.1 (hm.trans hEd)
    obtain ⟨n1, n2⟩ := abs_le.1 h1
    have s1 : |0.00478 * deg * sin (Solar.node (J2000Century J0))| ≤ 0.000084 := by
      rw [abs_mul, abs_of_pos (by positivity)]
      refine (mul_le_of_le_one_right (by positivity) (abs_sin_le_one _)).trans ?_
      linarith
    obtain ⟨s1, s2⟩ := abs_le.1 s1
    push_cast
    rw [ha, abs_le]
    constructor <;> linarith
  have ha' : a ≤ 1 / 2 := by rw [ha]; linarith
  have a0 : 0 ≤ a := (abs_nonneg _).trans hx
  obtain ⟨t0, ht0, hd0⟩ := season_root L _ J0 (fun s t hs ht => hL.slope s t (win s hs) (win t ht)) ha' hx
  have hJt : |J0 - t0| ≤ 31 := by rw [abs_sub_comm]; linarith
  have win0 : ∀ t, |t - t0| ≤ 60 → |t - J0| ≤ 100 := by
    intro t ht
    obtain ⟨a, b⟩ := abs_le.1 ht
    obtain ⟨a', b'⟩ := abs_le.1 hJt
    rw [abs_le]; constructor <;> linarith
  obtain ⟨J, e1, e2⟩ := season_loop L (fun J => (Solar.ApparentVSOP87 e J).1) q t0 hL.lift ⟨_, ht0⟩
    (fun s t hs ht => hL.slope s t (win s (win0 s hs)) (win t (win0 t ht))) 7 J0 (by rw [ht0]; linarith) hJt
    (by rw [ht0]
        have : 58 * |L J0 - (q + ((k - j + k1 : ℤ) : ℝ) * (2 * π))| ≤ 29 := by linarith
        calc _ ≤ 29 * (0.09 : ℝ) ^ 7 := mul_le_mul_of_nonneg_right this (by positivity)
          _ < 0.000005 := by norm_num)
  refine ⟨J, t0, e1, ⟨_, ht0⟩, e2, ?_⟩
  have f : J - Solstice.eq y c = (J - t0) + (t0 - J0) - (Solstice.eq y c - J0) := by ring
  have g : |t0 - J0| ≤ 61 * η + 0.0132 := by rw [ha] at hd0; linarith [abs_nonneg (t0 - J0)]
  obtain ⟨g1, g2⟩ := abs_le.1 g
  obtain ⟨g3, g4⟩ := abs_le.1 e2
  obtain ⟨g5, g6⟩ := abs_le.1 hcorr
  rw [f, abs_le]
  constructor <;> norm_num at * <;> linarith

/-- **C159.**  For the years −1000 to 3000 and any reasonable theory of the Earth, the loops of `March2`, `June2`, `September2` and `December2` stop after at most eight
corrections, within half a tenth of a second of an instant at which the apparent longitude of the Sun is exactly 0, 90, 180, 270 degrees, and within 49 minutes of the
result of the simple functions when the theory agrees with `solar.ApparentLongitude`. -/
theorem C159_loop {e : ℝ → ℝ × ℝ × ℝ} {L : ℝ → ℝ} {η : ℝ} (hL : SunLike e L η) (hη : η ≤ 0.4) (y : ℤ) (h0 : -1000 ≤ y) (h1 : y ≤ 3000) :
    (∃ J t0 : ℝ, Solstice.March2 y e 8 = some J ∧ (∃ k : ℤ, L t0 = k * (2 * π)) ∧ |J - t0| ≤ 5e-7 ∧ |J - Solstice.March y| ≤ 0.034 + 61 * η) ∧
    (∃ J t0 : ℝ, Solstice.June2 y e 8 = some J ∧ (∃ k : ℤ, L t0 = π / 2 + k * (2 * π)) ∧ |J - t0| ≤ 5e-7 ∧ |J - Solstice.June y| ≤ 0.034 + 61 * η) ∧
    (∃ J t0 : ℝ, Solstice.September2 y e 8 = some J ∧ (∃ k : ℤ, L t0 = π + k * (2 * π)) ∧ |J - t0| ≤ 5e-7 ∧ |J - Solstice.September y| ≤ 0.034 + 61 * η) ∧
    (∃ J t0 : ℝ, Solstice.December2 y e 8 = some J ∧ (∃ k : ℤ, L t0 = 3 * π / 2 + k * (2 * π)) ∧ |J - t0| ≤ 5e-7 ∧ |J - Solstice.December y| ≤ 0.034 + 61 * η) := by
  have e3 : 3 * π / 2 = π * 3 / 2 := by ring
  unfold Solstice.March2 Solstice.June2 Solstice.September2 Solstice.December2 Solstice.March Solstice.June Solstice.September Solstice.December
  rw [e3]
  by_cases h : y < 1000
  · simp only [if_pos h]
    have m := season2 hL hη (by norm_num) (mc0_mean y (by omega) (by omega))
    simp only [zero_add] at m
    exact ⟨m, season2 hL hη (by norm_num) (jc0_mean y (by omega) (by omega)), season2 hL hη (by norm_num) (sc0_mean y (by omega) (by omega)),
      season2 hL hη (by norm_num) (dc0_mean y (by omega) (by omega))⟩
  · simp only [if_neg h]
    have m := season2 hL hη (by norm_num) (mc2_mean (y - 2000) (by omega) (by omega))
    simp only [zero_add] at m
    exact ⟨m, season2 hL hη (by norm_num) (jc2_mean (y - 2000) (by omega) (by omega)), season2 hL hη (by norm_num) (sc2_mean (y - 2000) (by omega) (by omega)),
      season2 hL hη (by norm_num) (dc2_mean (y - 2000) (by omega) (by omega))⟩

/-- An Earth whose apparent longitude seen from the Sun is the mean longitude of package solar meets the hypotheses: the equation of the centre is below 0.04 radians. -/
example : SunLike (fun t => (Solar.meanLon (J2000Century t) - (Nutation.Nutation t).1 - Solar.aberration 1 - π + 0.09033 * Nutation.sec, 0, 1))
    (fun t => Solar.meanLon (J2000Century t)) 0.04 := by
  have hd : 0 < deg := by unfold deg; positivity
  have hd0 : 0.01745 ≤ deg := by have := pi_gt_d6; unfold deg; linarith
  have hd1 : deg ≤ 0.017454 := by have := pi_lt_d6; unfold deg; linarith
  refine ⟨?_, ?_, ?_⟩
  · intro t
    unfold Solar.ApparentVSOP87 Solar.TrueVSOP87
    dsimp only
    obtain ⟨-, -, k, hk⟩ := Verif.Go.mod1_eq (Solar.meanLon (J2000Century t) - (Nutation.Nutation t).1 - Solar.aberration 1 - π + 0.09033 * Nutation.sec + π - 0.09033 * Nutation.sec)
    refine ⟨-k, ?_⟩
    push_cast
    linarith
  · intro s t hs ht hst
    have e : Solar.meanLon (J2000Century t) - Solar.meanLon (J2000Century s) =
        (36000.76983 + 0.0003032 * (J2000Century t + J2000Century s)) * deg / 36525 * (t - s) := by
      unfold Solar.meanLon
      simp only [hornerR, List.foldr]
      have : t - s = 36525 * (J2000Century t - J2000Century s) := by unfold J2000Century; ring
      rw [this]; ring
    obtain ⟨a1, a2⟩ := abs_le.1 hs
    obtain ⟨b1, b2⟩ := abs_le.1 ht
    have c1 : 0.0164 ≤ (36000.76983 + 0.0003032 * (J2000Century t + J2000Century s)) * deg / 36525 := by rw [le_div_iff₀ (by norm_num)]; nlinarith
    have c2 : (36000.76983 + 0.0003032 * (J2000Century t + J2000Century s)) * deg / 36525 ≤ 0.0180 := by rw [div_le_iff₀ (by norm_num)]; nlinarith
    have d : 0 ≤ t - s := by linarith
    rw [e]
    exact ⟨mul_le_mul_of_nonneg_right c1 d, mul_le_mul_of_nonneg_right c2 d⟩
  · intro t ht
    obtain ⟨-, -, k, hk⟩ := Verif.Go.mod1_eq (Solar.meanLon (J2000Century t) + Solar.center (J2000Century t))
    refine ⟨k, ?_⟩
    obtain ⟨T, hT⟩ : ∃ T, T = J2000Century t := ⟨_, rfl⟩
    unfold Solar.ApparentLongitude Solar.TrueLon
    dsimp only
    rw [← hT] at ht hk ⊢
    obtain ⟨t1, t2⟩ := abs_le.1 ht
    have e : Solar.meanLon T - (Verif.Go.mod1 (Solar.meanLon T + Solar.center T) - 0.00569 * deg - 0.00478 * deg * sin (Solar.node T)) - k * (2 * π) =
        -Solar.center T + (0.00569 + 0.00478 * sin (Solar.node T)) * deg := by linarith
    rw [e]
    have hc : |Solar.center T| ≤ 2.2 * deg := by
      unfold Solar.center
      dsimp only
      rw [abs_mul, abs_of_pos hd]
      refine mul_le_mul_of_nonneg_right ?_ hd.le
      have q1 : |hornerR T [1.914602, -0.004817, -0.000014] * sin (Solar.MeanAnomaly T)| ≤ 2.1 := by
        rw [abs_mul]
        refine (mul_le_of_le_one_right (abs_nonneg _) (abs_sin_le_one _)).trans ?_
        simp only [hornerR, List.foldr]
        rw [abs_le]; constructor <;> nlinarith
      have q2 : |(0.019993 - 0.000101 * T) * sin (Solar.MeanAnomaly T * 2)| ≤ 0.03 := by
        rw [abs_mul]
        refine (mul_le_of_le_one_right (abs_nonneg _) (abs_sin_le_one _)).trans ?_
        rw [abs_le]; constructor <;> linarith
      obtain ⟨q1, q1'⟩ := abs_le.1 q1
      obtain ⟨q2, q2'⟩ := abs_le.1 q2
      obtain ⟨q3, q3'⟩ := abs_le.1 (abs_sin_le_one (Solar.MeanAnomaly T * 3))
      rw [abs_le]; constructor <;> linarith
    obtain ⟨c1, c2⟩ := abs_le.1 hc
    obtain ⟨q3, q3'⟩ := abs_le.1 (abs_sin_le_one (Solar.node T))
    have u1 : (0.00569 + 0.00478 * sin (Solar.node T)) * deg ≤ 0.02 * deg := mul_le_mul_of_nonneg_right (by linarith) hd.le
    have u2 : 0 * deg ≤ (0.00569 + 0.00478 * sin (Solar.node T)) * deg := mul_le_mul_of_nonneg_right (by linarith) hd.le
    rw [abs_le]; constructor <;> linarith

end Verif.Props
