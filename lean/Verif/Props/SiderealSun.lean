import Verif.Props.Rise
import Verif.Props.Solar
import Verif.Props.MoonArgs
/-
C173: sidereal time against the mean longitude of the Sun and the equation of time.
-/
namespace Verif.Props

open Real Verif.Spec Verif.Go Verif.Model Verif.Lemmas

/-- Sidereal time in radians less a turn for each day, on any day since the beginning of the Julian period. -/
theorem sidereal_expr (jd : ℝ) (h : -0.5 ≤ jd) : ∃ (δ : ℝ) (k : ℤ), 0 ≤ δ ∧ δ ≤ 1 / 36525 ∧
    Sidereal.Mean jd * (2 * π / 86400) = (24110.54841 / 240 + 180 + 8640184.812866 / 240 * (J2000Century jd - δ) + 0.093104 / 240 * (J2000Century jd - δ) ^ 2 +
      0.0000062 / 240 * (J2000Century jd - δ) ^ 3 + 360 * 0.00273790935 * 36525 * δ) * deg + 2 * π * jd + k * (2 * π) := by
  set n := ⌊jd + 0.5⌋ with hn
  set x := jd + 0.5 - n with hx
  have hn0 : 0 ≤ n := Int.floor_nonneg.2 (by norm_num at h ⊢; linarith)
  have x0 : 0 ≤ x := by have := Int.floor_le (jd + 0.5); rw [← hn] at this; rw [hx]; linarith
  have x1 : x < 1 := by have := Int.lt_floor_add_one (jd + 0.5); rw [← hn] at this; rw [hx]; linarith
  obtain ⟨⟨k1, e1⟩, -, ⟨k2, e2⟩, -⟩ := C62_day (fun _ => 0) n x hn0 x0 x1
  have hj : (n : ℝ) - 0.5 + x = jd := by rw [hx]; ring
  rw [hj] at e1 e2
  refine ⟨x / 36525, k1 + k2 - n, by positivity, by gcongr, ?_⟩
  have hT' : ((n : ℝ) - 0.5 - 2451545) / 36525 = J2000Century jd - x / 36525 := by
    unfold J2000Century; rw [hx]; ring
  rw [hT'] at e1
  rw [e2, e1]
  generalize J2000Century jd - x / 36525 = t
  have hjd : jd = n - 0.5 + x := hj.symm
  rw [hjd]
  clear_value x
  unfold deg
  push_cast
  ring

theorem sidereal_poly_bound (a0 a1 a2 a3 a4 a5 b c2 c3 T δ : ℝ) (hT : |T| ≤ 2) (h0 : 0 ≤ δ) (h1 : δ ≤ 1 / 36525) (ε : ℝ)
    (hε : |a0| + 2 * |a1| + 4 * |a2| + 8 * |a3| + 16 * |a4| + 32 * |a5| + (|b| + 5 * |c2| + 19 * |c3|) / 36525 ≤ ε) :
    |a0 + a1 * T + a2 * T ^ 2 + a3 * T ^ 3 + a4 * T ^ 4 + a5 * T ^ 5 + b * δ + c2 * ((T - δ) ^ 2 - T ^ 2) + c3 * ((T - δ) ^ 3 - T ^ 3)| ≤ ε := by
  have hd : |δ| ≤ 1 / 36525 := by rw [abs_of_nonneg h0]; exact h1
  have t2 : |T ^ 2| ≤ 4 := by rw [abs_pow]; exact (pow_le_pow_left₀ (abs_nonneg _) hT 2).trans (by norm_num)
  have t3 : |T ^ 3| ≤ 8 := by rw [abs_pow]; exact (pow_le_pow_left₀ (abs_nonneg _) hT 3).trans (by norm_num)
  have t4 : |T ^ 4| ≤ 16 := by rw [abs_pow]; exact (pow_le_pow_left₀ (abs_nonneg _) hT 4).trans (by norm_num)
  have t5 : |T ^ 5| ≤ 32 := by rw [abs_pow]; exact (pow_le_pow_left₀ (abs_nonneg _) hT 5).trans (by norm_num)
  have k2 : |(T - δ) ^ 2 - T ^ 2| ≤ 5 / 36525 := by
    rw [show (T - δ) ^ 2 - T ^ 2 = δ * (δ - 2 * T) by ring, abs_mul]
    have : |δ - 2 * T| ≤ 5 := by rw [abs_le] at *; constructor <;> linarith
    exact (mul_le_mul hd this (abs_nonneg _) (by norm_num)).trans (by norm_num)
  have k3 : |(T - δ) ^ 3 - T ^ 3| ≤ 19 / 36525 := by
    rw [show (T - δ) ^ 3 - T ^ 3 = -(δ * (δ ^ 2 - 3 * δ * T + 3 * T ^ 2)) by ring, abs_neg, abs_mul]
    have : |δ ^ 2 - 3 * δ * T + 3 * T ^ 2| ≤ 19 := by
      rw [abs_le] at *; constructor <;> nlinarith
    exact (mul_le_mul hd this (abs_nonneg _) (by norm_num)).trans (by norm_num)
  have m : ∀ a x c : ℝ, |x| ≤ c → |a * x| ≤ c * |a| := fun a x c hx => by
    rw [abs_mul, mul_comm]; exact mul_le_mul_of_nonneg_right hx (abs_nonneg _)
  have b1 := m a1 _ _ hT
  have b2 := m a2 _ _ t2
  have b3 := m a3 _ _ t3
  have b4 := m a4 _ _ t4
  have b5 := m a5 _ _ t5
  have b6 := m b _ _ hd
  have b7 := m c2 _ _ k2
  have b8 := m c3 _ _ k3
  have b0 := le_abs_self a0
  have b0' := neg_abs_le a0
  rw [abs_le] at b1 b2 b3 b4 b5 b6 b7 b8
  refine le_trans ?_ hε
  rw [abs_le]
  constructor <;> linarith [b1.1, b2.1, b3.1, b4.1, b5.1, b6.1, b7.1, b8.1, b1.2, b2.2, b3.2, b4.2, b5.2, b6.2, b7.2, b8.2]

/-- **C173.**  Mean sidereal time at Greenwich is the mean longitude of the Sun of package solar plus the hour angle of the mean Sun at Greenwich, which is a turn for
each day and 0 at noon (when the Julian day is whole), within 0.0068° (1.6 seconds of time; the constant part is the aberration of 0.0057°), for the two centuries
either side of 2000 and at any time of the day. -/
theorem C173_mean (jd : ℝ) (h : |J2000Century jd| ≤ 2) :
    Congr (Sidereal.Mean jd * (2 * π / 86400)) (Solar.meanLon (J2000Century jd) + 2 * π * jd) 0.0068 := by
  have h' : -0.5 ≤ jd := by
    have := (abs_le.1 h).1
    unfold J2000Century at this
    rw [le_div_iff₀ (by norm_num)] at this
    norm_num at this ⊢; linarith
  obtain ⟨δ, k, h0, h1, e⟩ := sidereal_expr jd h'
  refine ⟨k, ?_⟩
  have d0 : 0 < deg := by unfold deg; positivity
  rw [e]
  generalize J2000Century jd = T at *
  have key := sidereal_poly_bound (24110.54841 / 240 + 180 - 280.46646) (8640184.812866 / 240 - 36000.76983) (0.093104 / 240 - 0.0003032) (0.0000062 / 240) 0 0
    (360 * 0.00273790935 * 36525 - 8640184.812866 / 240) (0.093104 / 240) (0.0000062 / 240) T δ h h0 h1 0.0068 (by norm_num [abs_of_pos, abs_of_neg])
  refine le_trans (le_of_eq ?_) (mul_le_mul_of_nonneg_right key d0.le)
  rw [← abs_of_pos d0, ← abs_mul, abs_of_pos d0]
  congr 1
  simp only [Solar.meanLon, hornerR, List.foldr]
  ring

/-- **C173.**  The equation of time `eqtime.E` is the excess of the hour angle of the true Sun, apparent sidereal time at Greenwich less the apparent right ascension of
`solar.ApparentEquatorialVSOP87`, over the hour angle of the mean Sun, within 0.001° (0.24 seconds of time), for the two centuries either side of 2000, whatever the
positions of the Earth. -/
theorem C173_equation_of_time (jd : ℝ) (earth : ℝ → ℝ × ℝ × ℝ) (h : |J2000Century jd| ≤ 2) :
    Congr (Sidereal.Apparent (fun j => timeFromRad (Nutation.NutationInRA j)) jd * (2 * π / 86400) - (Solar.ApparentEquatorialVSOP87 earth jd).1)
      (2 * π * jd + Eqtime.E jd earth) 0.001 := by
  have h' : -0.5 ≤ jd := by
    have := (abs_le.1 h).1
    unfold J2000Century at this
    rw [le_div_iff₀ (by norm_num)] at this
    norm_num at this ⊢; linarith
  obtain ⟨-, -, k1, e1⟩ := C115_E jd earth
  obtain ⟨-, -, k2, e2⟩ := timeMod1_eq (Sidereal.mean jd + timeFromRad (Nutation.NutationInRA jd))
  obtain ⟨-, -, k3, e3⟩ := timeMod1_eq (Sidereal.mean jd)
  obtain ⟨δ, k, h0, h1, e⟩ := sidereal_expr jd h'
  have hA : Sidereal.Apparent (fun j => timeFromRad (Nutation.NutationInRA j)) jd * (2 * π / 86400) =
      Sidereal.Mean jd * (2 * π / 86400) + Nutation.NutationInRA jd + (k3 - k2) * (2 * π) := by
    unfold Sidereal.Apparent Sidereal.Mean
    have hp := pi_ne_zero
    have ht : timeFromRad (Nutation.NutationInRA jd) * (2 * π / 86400) = Nutation.NutationInRA jd := by
      unfold timeFromRad; field_simp; ring
    linear_combination (2 * π / 86400) * (e3 - e2) + ht
  refine ⟨k + k3 - k2 - k1, ?_⟩
  have d0 : 0 < deg := by unfold deg; positivity
  rw [hA, e1, e]
  generalize J2000Century jd = T at *
  have key := sidereal_poly_bound (24110.54841 / 240 + 180 - 280.4664567 + 0.0057183) (8640184.812866 / 240 - 36000.76982779) (0.093104 / 240 - 0.0003032028)
    (0.0000062 / 240 - 1 / 49931000) (1 / 153000000) (1 / 200000000000)
    (360 * 0.00273790935 * 36525 - 8640184.812866 / 240) (0.093104 / 240) (0.0000062 / 240) T δ h h0 h1 0.001 (by norm_num [abs_of_pos, abs_of_neg])
  refine le_trans (le_of_eq ?_) (mul_le_mul_of_nonneg_right key d0.le)
  rw [← abs_of_pos d0, ← abs_mul, abs_of_pos d0]
  congr 1
  simp only [Eqtime.l0, hornerR, List.foldr]
  push_cast
  ring

/-- The date of example 12.a of the book, 1987 April 10. -/
example : |J2000Century 2446895.5| ≤ 2 := by
  unfold J2000Century
  rw [abs_le]; constructor <;> norm_num

end Verif.Props
