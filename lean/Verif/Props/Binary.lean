import Verif.Model.Circle
import Verif.Lemmas.Rotation
/-
C75: apparent orbits of binary stars.
-/
namespace Verif.Props

open Real Verif.Go Verif.Model Verif.Spec Verif.Lemmas

/-- The true orbit: position relative to the focus in its own plane, with the node as first axis; semimajor axis a, eccentricity e,
periastron at ω, eccentric anomaly E. -/
noncomputable def trueOrbit (e a ω E : ℝ) : V3 := rotZ ω !₂[a * (cos E - e), a * sqrt (1 - e ^ 2) * sin E, 0]

/-- The orbit in space: inclined by i about the node, which has position angle Ω; the third axis is the line of sight. -/
noncomputable def skyOrbit (e a i Ω ω E : ℝ) : V3 := rotZ Ω (rotX i (trueOrbit e a ω E))

/-- True anomaly and radius, for all eccentric anomalies except odd multiples of 180°, where the code takes the tangent of 90°. -/
theorem half_angle {E e : ℝ} (h0 : 0 ≤ e) (h1 : e < 1) (hE : cos (E / 2) ≠ 0) :
    (1 - e * cos E) * cos (2 * arctan (sqrt ((1 + e) / (1 - e)) * tan (E / 2))) = cos E - e ∧
    (1 - e * cos E) * sin (2 * arctan (sqrt ((1 + e) / (1 - e)) * tan (E / 2))) = sqrt (1 - e ^ 2) * sin E := by
  set c := cos (E / 2) with hcd
  set s := sin (E / 2) with hsd
  have hcs : s ^ 2 + c ^ 2 = 1 := sin_sq_add_cos_sq _
  have h2E : E = 2 * (E / 2) := by ring
  have hcosE : cos E = c ^ 2 - s ^ 2 := by rw [h2E, cos_two_mul, ← hcd]; linarith
  have hsinE : sin E = 2 * s * c := by rw [h2E, sin_two_mul]
  have h1e : 0 < 1 - e := by linarith
  have hw2 : sqrt ((1 + e) / (1 - e)) ^ 2 = (1 + e) / (1 - e) := sq_sqrt (by positivity)
  set w := sqrt ((1 + e) / (1 - e)) with hw
  have hw0 : 0 ≤ w := sqrt_nonneg _
  have hw3 : sqrt (1 - e ^ 2) = w * (1 - e) := by
    have : 1 - e ^ 2 = (w * (1 - e)) ^ 2 := by rw [mul_pow, hw2]; field_simp; ring
    rw [this, sqrt_sq (by positivity)]
  have htan : tan (E / 2) = s / c := tan_eq_sin_div_cos _
  have hden : 0 < 1 - e * cos E := by nlinarith [cos_le_one E]
  have ht2 : 1 + (w * tan (E / 2)) ^ 2 = (1 - e * cos E) / ((1 - e) * c ^ 2) := by
    rw [mul_pow, hw2, htan, hcosE]
    have : s ^ 2 = 1 - c ^ 2 := by linarith
    field_simp
    rw [this]; ring
  set t := w * tan (E / 2) with ht
  have hpos : 0 < 1 + t ^ 2 := by positivity
  have c2 : cos (2 * arctan t) = (1 - t ^ 2) / (1 + t ^ 2) := by
    rw [cos_two_mul, cos_sq_arctan]; field_simp; ring
  have s2 : sin (2 * arctan t) = 2 * t / (1 + t ^ 2) := by
    rw [sin_two_mul, sin_arctan, cos_arctan]
    have : sqrt (1 + t ^ 2) * sqrt (1 + t ^ 2) = 1 + t ^ 2 := mul_self_sqrt hpos.le
    rw [mul_assoc, div_mul_div_comm, this]; ring
  rw [c2, s2, ht2]
  have hc2 : 0 < c ^ 2 := by positivity
  have hd : 1 - e * cos E ≠ 0 := hden.ne'
  constructor
  · rw [show 1 - t ^ 2 = 2 - (1 + t ^ 2) by ring, ht2]
    have key : cos E = 2 * c ^ 2 - 1 := by rw [hcosE]; linarith
    field_simp
    rw [key]; ring
  · rw [hw3, ht, htan, hsinE]
    field_simp

/-- C75: position angle and distance are the polar coordinates of the projection of the true orbit onto the sky (north, east). -/
theorem C75_position (e a i Ω ω E : ℝ) (h0 : 0 ≤ e) (h1 : e < 1) (hE : cos (E / 2) ≠ 0) :
    (Binary.Position e a i Ω ω E).2 * cos (Binary.Position e a i Ω ω E).1 = skyOrbit e a i Ω ω E 0 ∧
    (Binary.Position e a i Ω ω E).2 * sin (Binary.Position e a i Ω ω E).1 = skyOrbit e a i Ω ω E 1 ∧
    0 ≤ (Binary.Position e a i Ω ω E).1 ∧ (Binary.Position e a i Ω ω E).1 < 2 * π ∧
    (0 ≤ a → 0 ≤ (Binary.Position e a i Ω ω E).2) := by
  obtain ⟨hx, hy⟩ := half_angle h0 h1 hE
  have hden : 0 < 1 - e * cos E := by nlinarith [cos_le_one E]
  unfold Binary.Position
  dsimp only
  set ν := 2 * arctan (sqrt ((1 + e) / (1 - e)) * tan (E / 2)) with hν
  obtain ⟨p1, p2⟩ := atan2_polar (sin (ν + ω) * cos i) (cos (ν + ω))
  obtain ⟨m1, m2, k, hk⟩ := mod1_eq (atan2 (sin (ν + ω) * cos i) (cos (ν + ω)) + Ω)
  have hs : sqrt (sin (ν + ω) * cos i * (sin (ν + ω) * cos i) + cos (ν + ω) * cos (ν + ω)) =
      sqrt (cos (ν + ω) ^ 2 + (sin (ν + ω) * cos i) ^ 2) := by congr 1; ring
  rw [hs]
  set A := atan2 (sin (ν + ω) * cos i) (cos (ν + ω)) with hA
  set R := sqrt (cos (ν + ω) ^ 2 + (sin (ν + ω) * cos i) ^ 2) with hR
  have hmc : cos (mod1 (A + Ω)) = cos (A + Ω) := by
    rw [hk, cos_add_int_mul_two_pi, ← hk]
  have hms : sin (mod1 (A + Ω)) = sin (A + Ω) := by
    rw [hk, sin_add_int_mul_two_pi, ← hk]
  refine ⟨?_, ?_, m1, m2, fun ha => mul_nonneg (mul_nonneg ha hden.le) (sqrt_nonneg _)⟩
  · rw [hmc, cos_add]
    unfold skyOrbit trueOrbit rotX rotZ
    simp only [Matrix.cons_val_zero, Matrix.cons_val_one, Matrix.cons_val]
    rw [cos_add] at p1
    rw [sin_add] at p2
    generalize sqrt (1 - e ^ 2) = w at *
    clear_value R A ν
    linear_combination a * (1 - e * cos E) * (cos Ω * p1 - sin Ω * p2) + a * (cos Ω * cos ω - sin Ω * cos i * sin ω) * hx +
      a * (-cos Ω * sin ω - sin Ω * cos i * cos ω) * hy
  · rw [hms, sin_add]
    unfold skyOrbit trueOrbit rotX rotZ
    simp only [Matrix.cons_val_zero, Matrix.cons_val_one, Matrix.cons_val]
    rw [cos_add] at p1
    rw [sin_add] at p2
    generalize sqrt (1 - e ^ 2) = w at *
    clear_value R A ν
    linear_combination a * (1 - e * cos E) * (sin Ω * p1 + cos Ω * p2) + a * (sin Ω * cos ω + cos Ω * cos i * sin ω) * hx +
      a * (-sin Ω * sin ω + cos Ω * cos i * cos ω) * hy

/-- The forms of the apparent orbit. -/
theorem binary_forms {e i ω : ℝ} (h0 : 0 ≤ e) (h1 : e < 1) :
    let A := (1 - e * e * cos ω * cos ω) * cos i * cos i
    let B := e * e * sin ω * cos ω * cos i
    let C := 1 - e * e * sin ω * sin ω
    A * C - B * B = cos i ^ 2 * (1 - e ^ 2) ∧ 0 ≤ A ∧ 0 < C := by
  intro A B C
  have hs := sin_sq_add_cos_sq ω
  have e2 : e * e < 1 := by nlinarith
  refine ⟨?_, ?_, ?_⟩
  · simp only [A, B, C]
    have : cos ω ^ 2 = 1 - sin ω ^ 2 := by linarith
    ring_nf
    rw [this]
    ring
  · have : 0 ≤ 1 - e * e * cos ω * cos ω := by nlinarith [sq_nonneg (sin ω), sq_nonneg (cos ω), mul_self_nonneg e]
    simp only [A]
    rw [mul_assoc]
    exact mul_nonneg this (mul_self_nonneg _)
  · simp only [C]
    nlinarith [sq_nonneg (sin ω), sq_nonneg (cos ω), mul_self_nonneg e]

/-- C75: the apparent eccentricity is in [0,1), except for an orbit seen edge on, where it is 1. -/
theorem C75_range (e i ω : ℝ) (h0 : 0 ≤ e) (h1 : e < 1) :
    0 ≤ Binary.ApparentEccentricity e i ω ∧ (cos i ≠ 0 → Binary.ApparentEccentricity e i ω < 1) ∧
    (cos i = 0 → Binary.ApparentEccentricity e i ω = 1) := by
  obtain ⟨f1, f2, f3⟩ := binary_forms (i := i) (ω := ω) h0 h1
  unfold Binary.ApparentEccentricity
  dsimp only
  set A := (1 - e * e * cos ω * cos ω) * cos i * cos i with hA
  set B := e * e * sin ω * cos ω * cos i with hB
  set C := 1 - e * e * sin ω * sin ω with hC
  have e2 : 0 < 1 - e ^ 2 := by nlinarith
  refine ⟨sqrt_nonneg _, ?_, ?_⟩
  · intro hc
    have hlt : sqrt ((A - C) * (A - C) + 4 * B * B) < A + C := by
      rw [sqrt_lt' (by linarith)]
      have : 0 < cos i ^ 2 * (1 - e ^ 2) := by positivity
      nlinarith
    have hn := sqrt_nonneg ((A - C) * (A - C) + 4 * B * B)
    rw [sqrt_lt' one_pos, one_pow, div_lt_one (by linarith)]
    linarith
  · intro hc
    have hA0 : A = 0 := by rw [hA, hc]; ring
    have hB0 : B = 0 := by rw [hB, hc]; ring
    rw [hA0, hB0, show (0 - C) * (0 - C) + 4 * 0 * 0 = C ^ 2 by ring, sqrt_sq f3.le, zero_add, show 2 * C / (C + C) = 1 by field_simp; ring,
      sqrt_one]

/-- C75: an orbit seen face on has its true eccentricity. -/
theorem C75_face_on (e ω : ℝ) (h0 : 0 ≤ e) :
    Binary.ApparentEccentricity e 0 ω = e ∧ Binary.ApparentEccentricity e π ω = e := by
  have hs := sin_sq_add_cos_sq ω
  unfold Binary.ApparentEccentricity
  dsimp only
  rw [cos_zero, cos_pi]
  have d1 : ((1 - e * e * cos ω * cos ω) * 1 * 1 - (1 - e * e * sin ω * sin ω)) * ((1 - e * e * cos ω * cos ω) * 1 * 1 - (1 - e * e * sin ω * sin ω)) +
      4 * (e * e * sin ω * cos ω * 1) * (e * e * sin ω * cos ω * 1) = (e ^ 2) ^ 2 := by
    have : cos ω ^ 2 = 1 - sin ω ^ 2 := by linarith
    ring_nf
    rw [show cos ω ^ 4 = (cos ω ^ 2) ^ 2 by ring, this]
    ring
  have d2 : ((1 - e * e * cos ω * cos ω) * -1 * -1 - (1 - e * e * sin ω * sin ω)) * ((1 - e * e * cos ω * cos ω) * -1 * -1 - (1 - e * e * sin ω * sin ω)) +
      4 * (e * e * sin ω * cos ω * -1) * (e * e * sin ω * cos ω * -1) = (e ^ 2) ^ 2 := by
    rw [← d1]; ring
  rw [d1, d2, sqrt_sq (sq_nonneg e)]
  have s1 : (1 - e * e * cos ω * cos ω) * 1 * 1 + (1 - e * e * sin ω * sin ω) + e ^ 2 = 2 := by nlinarith
  have s2 : (1 - e * e * cos ω * cos ω) * -1 * -1 + (1 - e * e * sin ω * sin ω) + e ^ 2 = 2 := by nlinarith
  rw [s1, s2, show 2 * e ^ 2 / 2 = e ^ 2 by ring, sqrt_sq h0]
  exact ⟨rfl, rfl⟩

/-- Half-angle form: a vector is (s cos 2t, s sin 2t) for s its length. -/
theorem double_polar (x y : ℝ) : ∃ t, sqrt (x ^ 2 + y ^ 2) * cos (2 * t) = x ∧ sqrt (x ^ 2 + y ^ 2) * sin (2 * t) = y :=
  ⟨atan2 y x / 2, by rw [show 2 * (atan2 y x / 2) = atan2 y x by ring]; exact atan2_polar y x⟩

/-- C75: the apparent orbit is an ellipse with the apparent eccentricity: there are semiaxes p ≥ q > 0 and a direction t such that every
position, relative to the projection of the centre of the true orbit, satisfies the equation of the ellipse with these axes, and its eccentricity
√(1 - (q/p)²) is the result.  (Orbit not seen edge on; Ω = 0, a rotation of the sky.) -/
theorem C75_ellipse (e a i ω : ℝ) (h0 : 0 ≤ e) (h1 : e < 1) (ha : 0 < a) (hi : cos i ≠ 0) :
    ∃ p q t : ℝ, 0 < q ∧ q ≤ p ∧ Binary.ApparentEccentricity e i ω = sqrt (1 - (q / p) ^ 2) ∧
      ∀ E, let X := skyOrbit e a i 0 ω E 0 + a * e * cos ω
           let Y := skyOrbit e a i 0 ω E 1 + a * e * sin ω * cos i
           ((X * cos t + Y * sin t) / q) ^ 2 + ((-X * sin t + Y * cos t) / p) ^ 2 = 1 := by
  obtain ⟨f1, f2, f3⟩ := binary_forms (i := i) (ω := ω) h0 h1
  unfold Binary.ApparentEccentricity
  dsimp only at f1 f2 f3 ⊢
  set A := (1 - e * e * cos ω * cos ω) * cos i * cos i with hA
  set B := e * e * sin ω * cos ω * cos i with hB
  set C := 1 - e * e * sin ω * sin ω with hC
  have e2 : 0 < 1 - e ^ 2 := by nlinarith
  obtain ⟨t, t1, t2⟩ := double_polar (A - C) (-(2 * B))
  have hsD : sqrt ((A - C) * (A - C) + 4 * B * B) = sqrt ((A - C) ^ 2 + (-(2 * B)) ^ 2) := by congr 1; ring
  rw [hsD]
  have hD2 : sqrt ((A - C) ^ 2 + (-(2 * B)) ^ 2) ^ 2 = (A - C) ^ 2 + (-(2 * B)) ^ 2 := sq_sqrt (by positivity)
  have hD0 := sqrt_nonneg ((A - C) ^ 2 + (-(2 * B)) ^ 2)
  set s := sqrt ((A - C) ^ 2 + (-(2 * B)) ^ 2) with hs
  have hlt : s < A + C := by
    have : 0 < cos i ^ 2 * (1 - e ^ 2) := by positivity
    nlinarith
  -- the constant of the form
  set K := a ^ 2 * (1 - e ^ 2) * cos i ^ 2 with hK
  have hK0 : 0 < K := by positivity
  have l1 : 0 < (A + C + s) / 2 := by linarith
  have l2 : 0 < (A + C - s) / 2 := by linarith
  refine ⟨sqrt (K / ((A + C - s) / 2)), sqrt (K / ((A + C + s) / 2)), t, sqrt_pos.2 (div_pos hK0 l1), ?_, ?_, ?_⟩
  · exact sqrt_le_sqrt (div_le_div_of_nonneg_left hK0.le l2 (by linarith))
  · congr 1
    rw [div_pow, sq_sqrt (div_pos hK0 l1).le, sq_sqrt (div_pos hK0 l2).le]
    have : A + C + s ≠ 0 := by linarith
    have : A + C - s ≠ 0 := by linarith
    field_simp
    ring
  · intro E
    have hX : skyOrbit e a i 0 ω E 0 + a * e * cos ω = a * (cos ω * cos E - sin ω * sqrt (1 - e ^ 2) * sin E) := by
      unfold skyOrbit trueOrbit rotX rotZ
      simp
      ring
    have hY : skyOrbit e a i 0 ω E 1 + a * e * sin ω * cos i = a * cos i * (sin ω * cos E + cos ω * sqrt (1 - e ^ 2) * sin E) := by
      unfold skyOrbit trueOrbit rotX rotZ
      simp
      ring
    rw [hX, hY, div_pow, div_pow, sq_sqrt (div_pos hK0 l1).le, sq_sqrt (div_pos hK0 l2).le]
    have hw : sqrt (1 - e ^ 2) ^ 2 = 1 - e ^ 2 := sq_sqrt e2.le
    set w := sqrt (1 - e ^ 2)
    set X := a * (cos ω * cos E - sin ω * w * sin E) with hXd
    set Y := a * cos i * (sin ω * cos E + cos ω * w * sin E) with hYd
    have form : A * X ^ 2 - 2 * B * X * Y + C * Y ^ 2 = K := by
      have q1 := sin_sq_add_cos_sq ω
      have q2 := sin_sq_add_cos_sq E
      rw [hXd, hYd, hA, hB, hC, hK]
      clear_value w
      clear * - q1 q2 hw
      grind
    rw [cos_two_mul] at t1
    rw [sin_two_mul] at t2
    have q3 := sin_sq_add_cos_sq t
    rw [div_div_eq_mul_div, div_div_eq_mul_div, ← add_div, div_eq_one_iff_eq hK0.ne', ← form]
    clear_value X Y A B C s
    clear * - t1 t2 q3
    grind

/-- C75: the mean anomaly repeats after one period, and is 0 at periastron. -/
theorem C75_mean (year T P : ℝ) (hP : P ≠ 0) : Binary.M (year + P) T P = Binary.M year T P ∧ Binary.M T T P = 0 ∧
    0 ≤ Binary.M year T P ∧ Binary.M year T P < 2 * π := by
  unfold Binary.M
  dsimp only
  refine ⟨?_, ?_, (mod1_eq _).1, (mod1_eq _).2.1⟩
  · exact mod1_congr ⟨1, by push_cast; field_simp; ring⟩
  · rw [sub_self, mul_zero, mod1_of_mem le_rfl (by linarith [pi_pos])]

/-- The hypotheses are met by γ Virginis: e = 0.88, i = 146°. -/
example : (0 : ℝ) ≤ 0.8808 ∧ (0.8808 : ℝ) < 1 ∧ cos (146.05 * π / 180) ≠ 0 := by
  refine ⟨by norm_num, by norm_num, (cos_neg_of_pi_div_two_lt_of_lt ?_ ?_).ne⟩ <;> linarith [pi_pos]

end Verif.Props
