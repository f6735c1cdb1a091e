import Verif.Model.Nutation
import Verif.Lemmas.Series
import Mathlib.Tactic

/-! Property C116: nutation and the obliquity of the ecliptic. -/

namespace Verif.Props

open Real Verif.Model Verif.Model.Nutation

theorem nsec_pos : 0 < sec := by unfold sec; positivity

/-- The absolute value of a polynomial is at most that of the polynomial with absolute values. -/
theorem abs_hornerR_le (x X : ℝ) (hx : |x| ≤ X) (c : List ℝ) : |hornerR x c| ≤ hornerR X (c.map abs) := by
  induction c with
  | nil => simp [hornerR]
  | cons a c ih =>
    have e : ∀ y (a : ℝ) (c : List ℝ), hornerR y (a :: c) = hornerR y c * y + a := fun _ _ _ => rfl
    rw [List.map_cons, e, e]
    refine (abs_add_le _ _).trans ?_
    rw [abs_mul]
    have := mul_le_mul ih hx (abs_nonneg _) ((abs_nonneg _).trans ih)
    linarith

/-- C116.  The two polynomials for the mean obliquity agree to a third of a second over ten centuries either side of 2000 and to
two seconds over twenty. -/
theorem C116_obliquity (jde : ℝ) :
    (|J2000Century jde| ≤ 10 → |MeanObliquity jde - MeanObliquityLaskar jde| ≤ 0.35 * sec) ∧
    (|J2000Century jde| ≤ 20 → |MeanObliquity jde - MeanObliquityLaskar jde| ≤ 2 * sec) := by
  have e : MeanObliquity jde - MeanObliquityLaskar jde =
      hornerR (J2000Century jde) [0, -46.815 + 46.8093, -0.00059 + 0.000155, 0.001813 - 0.00199925, 51.38e-8, 249.67e-10, 39.05e-12,
        -7.12e-14, -27.87e-16, -5.79e-18, -2.45e-20] * sec := by
    unfold MeanObliquity MeanObliquityLaskar hornerR
    simp only [List.foldr]
    ring
  rw [e, abs_mul, abs_of_pos nsec_pos]
  constructor
  · intro h
    refine mul_le_mul_of_nonneg_right ((abs_hornerR_le _ 10 h _).trans ?_) nsec_pos.le
    norm_num [hornerR, abs_of_pos, abs_of_neg]
  · intro h
    refine mul_le_mul_of_nonneg_right ((abs_hornerR_le _ 20 h _).trans ?_) nsec_pos.le
    norm_num [hornerR, abs_of_pos, abs_of_neg]

/-- The obliquity is between 22.5 and 24.5 degrees for twenty centuries either side of 2000. -/
theorem C116_range (jde : ℝ) (h : |J2000Century jde| ≤ 20) :
    23.1 * 3600 * sec < MeanObliquity jde ∧ MeanObliquity jde < 23.8 * 3600 * sec := by
  have hs := nsec_pos
  have e : MeanObliquity jde = 84381.448 * sec + hornerR (J2000Century jde) [0, -46.815, -0.00059, 0.001813] * sec := by
    unfold MeanObliquity hornerR
    simp only [List.foldr]
    ring
  have b := (abs_hornerR_le _ 20 h [0, -46.815, -0.00059, 0.001813]).trans
    (show _ ≤ (1000 : ℝ) by norm_num [hornerR, abs_of_pos, abs_of_neg])
  rw [abs_le] at b
  rw [e]
  constructor <;> nlinarith

/-- The obliquity decreases for all of that time. -/
theorem C116_decreasing (j k : ℝ) (hj : |J2000Century j| ≤ 20) (hk : |J2000Century k| ≤ 20) (h : j < k) :
    MeanObliquity k < MeanObliquity j := by
  have hT : J2000Century j < J2000Century k := by
    unfold J2000Century
    linarith
  have hs := nsec_pos
  unfold MeanObliquity
  refine mul_lt_mul_of_pos_right ?_ hs
  unfold hornerR
  simp only [List.foldr]
  generalize J2000Century j = a at *
  generalize J2000Century k = b at *
  rw [abs_le] at hj hk
  have p : a * a + a * b + b * b ≤ 1200 := by nlinarith
  nlinarith [mul_pos (sub_pos.mpr hT) (show 0 < 46.815 + 0.00059 * (a + b) - 0.001813 * (a * a + a * b + b * b) by nlinarith)]

/-- Bound of a sum of the rows. -/
theorem rows_bound (l : List Row) (g a b : Row → ℝ) (T : ℝ) (hg : ∀ r, |g r| ≤ 1) :
    |(l.map fun r => g r * (a r + b r * T)).sum| ≤ (l.map fun r => |a r|).sum + (l.map fun r => |b r|).sum * |T| := by
  induction l with
  | nil => simp
  | cons r l ih =>
    simp only [List.map_cons, List.sum_cons]
    refine (abs_add_le _ _).trans ?_
    have h1 : |g r * (a r + b r * T)| ≤ |a r| + |b r| * |T| := by
      rw [abs_mul]
      have h2 : |a r + b r * T| ≤ |a r| + |b r| * |T| := (abs_add_le _ _).trans (by rw [abs_mul])
      have := mul_le_mul (hg r) h2 (abs_nonneg _) zero_le_one
      linarith
    linarith

/-- C116.  Nutation in longitude stays below 19.5 seconds and in obliquity below 10.1 seconds for four centuries. -/
theorem C116_bounds (jde : ℝ) :
    |(Nutation jde).1| ≤ (19.4317 + 0.01824 * |J2000Century jde|) * sec ∧
    |(Nutation jde).2| ≤ (10.0734 + 0.00142 * |J2000Century jde|) * sec := by
  have hs := nsec_pos
  unfold Nutation
  dsimp only
  set T := J2000Century jde
  have b1 := rows_bound table22A (fun r => sin (r.arg T)) (·.s0) (·.s1) T fun r => abs_sin_le_one _
  have b2 := rows_bound table22A (fun r => cos (r.arg T)) (·.c0) (·.c1) T fun r => abs_cos_le_one _
  have s1 : (table22A.map fun r => |r.s0|).sum ≤ 194317 := by norm_num [table22A]
  have s2 : (table22A.map fun r => |r.s1|).sum ≤ 182.4 := by norm_num [table22A]
  have s3 : (table22A.map fun r => |r.c0|).sum ≤ 100734 := by norm_num [table22A]
  have s4 : (table22A.map fun r => |r.c1|).sum ≤ 14.2 := by norm_num [table22A]
  have hT := abs_nonneg T
  constructor
  · rw [abs_mul, abs_mul, abs_of_pos hs, abs_of_pos (by norm_num : (0 : ℝ) < 0.0001)]
    refine mul_le_mul_of_nonneg_right ?_ hs.le
    nlinarith
  · rw [abs_mul, abs_mul, abs_of_pos hs, abs_of_pos (by norm_num : (0 : ℝ) < 0.0001)]
    refine mul_le_mul_of_nonneg_right ?_ hs.le
    nlinarith

theorem abs_sin_sub_sin (x y : ℝ) : |sin x - sin y| ≤ |x - y| := by
  rw [sin_sub_sin, abs_mul, abs_mul]
  have h1 := abs_cos_le_one ((x + y) / 2)
  have h2 : |sin ((x - y) / 2)| ≤ |(x - y) / 2| := abs_sin_le_abs
  rw [abs_div, abs_of_pos (by norm_num : (0 : ℝ) < 2)] at h2
  rw [abs_of_pos (by norm_num : (0 : ℝ) < 2)]
  nlinarith [abs_nonneg (sin ((x - y) / 2))]

theorem abs_cos_sub_cos (x y : ℝ) : |cos x - cos y| ≤ |x - y| := by
  rw [← sin_pi_div_two_sub, ← sin_pi_div_two_sub]
  refine (abs_sin_sub_sin _ _).trans ?_
  rw [show π / 2 - x - (π / 2 - y) = -(x - y) by ring, abs_neg]

/-- The arguments of the two functions are nearly the same, for half a century. -/
theorem approx_args (T : ℝ) (hT : |T| ≤ 0.5) :
    |argΩ T - (125.04452 - 1934.136261 * T) * π / 180| ≤ 0.00001 ∧
    |2 * (argF T + argΩ T - argD T) - (2 * ((280.4665 + 36000.7698 * T) * π / 180) - 2 * (2 * π))| ≤ 0.0001 ∧
    |2 * (argF T + argΩ T) - 2 * ((218.3165 + 481267.8813 * T) * π / 180)| ≤ 0.0001 := by
  have hp := pi_lt_d2
  have hp0 := pi_pos
  have key : ∀ (c : List ℝ) (k : ℝ), hornerR 0.5 (c.map abs) ≤ k → |hornerR T c * (π / 180)| ≤ k * (3.15 / 180) := by
    intro c k h
    rw [abs_mul, abs_of_pos (by positivity : 0 < π / 180)]
    refine mul_le_mul ((abs_hornerR_le _ _ hT c).trans h) (by linarith) (by positivity) ?_
    exact (abs_nonneg _).trans ((abs_hornerR_le _ _ hT c).trans h)
  refine ⟨?_, ?_, ?_⟩
  · have := key [0, 0, 0.0020708, 1 / 450000] 0.00053 (by norm_num [hornerR, abs_of_pos])
    rw [show argΩ T - (125.04452 - 1934.136261 * T) * π / 180 = hornerR T [0, 0, 0.0020708, 1 / 450000] * (π / 180) by
      unfold argΩ hornerR; simp only [List.foldr]; ring]
    linarith
  · have := key [-0.00086, -0.000006, 2 * (-0.0036825 + 0.0020708 + 0.0019142), 2 * (1 / 327270 + 1 / 450000 - 1 / 189474)] 0.002
      (by norm_num [hornerR, abs_of_pos])
    rw [show 2 * (argF T + argΩ T - argD T) - (2 * ((280.4665 + 36000.7698 * T) * π / 180) - 2 * (2 * π)) =
        hornerR T [-0.00086, -0.000006, 2 * (-0.0036825 + 0.0020708 + 0.0019142), 2 * (1 / 327270 + 1 / 450000 - 1 / 189474)] * (π / 180) by
      unfold argF argΩ argD hornerR; simp only [List.foldr]; ring]
    linarith
  · have := key [-0.00014, -0.000046, 2 * (-0.0036825 + 0.0020708), 2 * (1 / 327270 + 1 / 450000)] 0.002
      (by norm_num [hornerR, abs_of_pos])
    rw [show 2 * (argF T + argΩ T) - 2 * ((218.3165 + 481267.8813 * T) * π / 180) =
        hornerR T [-0.00014, -0.000046, 2 * (-0.0036825 + 0.0020708), 2 * (1 / 327270 + 1 / 450000)] * (π / 180) by
      unfold argF argΩ hornerR; simp only [List.foldr]; ring]
    linarith

theorem table_split : table22A = [⟨0, 0, 0, 0, 1, -171996, -174.2, 92025, 8.9⟩, ⟨-2, 0, 0, 2, 2, -13187, -1.6, 5736, -3.1⟩,
  ⟨0, 0, 0, 2, 2, -2274, -0.2, 977, -0.5⟩, ⟨0, 0, 0, 0, 2, 2062, 0.2, -895, 0.5⟩] ++ table22A.drop 4 := rfl

/-- C116.  `ApproxNutation` is within half a second of `Nutation` in longitude, for half a century either side of 2000. -/
theorem C116_approx (jde : ℝ) (h : |J2000Century jde| ≤ 0.5) :
    |(ApproxNutation jde).1 - (Nutation jde).1| ≤ 0.5 * sec := by
  have hs := nsec_pos
  unfold Nutation ApproxNutation
  dsimp only
  rw [show (jde - 2451545) / 36525 = J2000Century jde from rfl]
  set T := J2000Century jde
  obtain ⟨a1, a2, a3⟩ := approx_args T h
  have b1 := rows_bound (table22A.drop 4) (fun r => sin (r.arg T)) (·.s0) (·.s1) T fun r => abs_sin_le_one _
  have s1 : ((table22A.drop 4).map fun r => |r.s0|).sum ≤ 4798 := by norm_num [table22A]
  have s2 : ((table22A.drop 4).map fun r => |r.s1|).sum ≤ 6.2 := by norm_num [table22A]
  rw [table_split, List.map_append, List.sum_append]
  set R := ((table22A.drop 4).map fun r => sin (r.arg T) * (r.s0 + r.s1 * T)).sum
  simp only [List.map_cons, List.map_nil, List.sum_cons, List.sum_nil, Row.arg]
  set u := (125.04452 - 1934.136261 * T) * π / 180
  set v := (280.4665 + 36000.7698 * T) * π / 180
  set w := (218.3165 + 481267.8813 * T) * π / 180
  have hv : sin (2 * v - 2 * (2 * π)) = sin (2 * v) := by
    have := sin_sub_nat_mul_two_pi (2 * v) 2
    push_cast at this
    exact this
  have c1 := abs_le.mp ((abs_sin_sub_sin (argΩ T) u).trans a1)
  have c2 := abs_le.mp ((abs_sin_sub_sin _ _).trans a2)
  have c3 := abs_le.mp ((abs_sin_sub_sin _ _).trans a3)
  have c4 := abs_le.mp ((abs_sin_sub_sin (2 * argΩ T) (2 * u)).trans
    (show |2 * argΩ T - 2 * u| ≤ 0.00002 by rw [← mul_sub, abs_mul, abs_of_pos (by norm_num : (0 : ℝ) < 2)]; linarith))
  rw [hv] at c2
  rw [← sub_mul, abs_mul, abs_of_pos hs]
  refine mul_le_mul_of_nonneg_right ?_ hs.le
  rw [show 0 * argD T + 0 * argM T + 0 * argN T + 0 * argF T + 1 * argΩ T = argΩ T by ring,
    show -2 * argD T + 0 * argM T + 0 * argN T + 2 * argF T + 2 * argΩ T = 2 * (argF T + argΩ T - argD T) by ring,
    show 0 * argD T + 0 * argM T + 0 * argN T + 2 * argF T + 2 * argΩ T = 2 * (argF T + argΩ T) by ring,
    show 0 * argD T + 0 * argM T + 0 * argN T + 0 * argF T + 2 * argΩ T = 2 * argΩ T by ring]
  set A := sin (argΩ T)
  set B := sin (2 * (argF T + argΩ T - argD T))
  set C := sin (2 * (argF T + argΩ T))
  set D := sin (2 * argΩ T)
  have tb : ∀ x, |sin x * T| ≤ 0.5 := fun x => by
    rw [abs_mul]
    have := mul_le_mul (abs_sin_le_one x) h (abs_nonneg _) zero_le_one
    linarith
  have t1 := abs_le.mp (tb (argΩ T))
  have t2 := abs_le.mp (tb (2 * (argF T + argΩ T - argD T)))
  have t3 := abs_le.mp (tb (2 * (argF T + argΩ T)))
  have t4 := abs_le.mp (tb (2 * argΩ T))
  have o1 := abs_le.mp (abs_sin_le_one (argΩ T))
  have o2 := abs_le.mp (abs_sin_le_one (2 * (argF T + argΩ T - argD T)))
  have o3 := abs_le.mp (abs_sin_le_one (2 * (argF T + argΩ T)))
  have o4 := abs_le.mp (abs_sin_le_one (2 * argΩ T))
  have hR : |R| ≤ 4801.1 := by
    refine b1.trans ?_
    nlinarith [abs_nonneg T]
  rw [abs_le] at hR ⊢
  constructor <;> linarith

/-- C116.  The nutation in right ascension is at most the nutation in longitude. -/
theorem C116_inRA (jde : ℝ) : |NutationInRA jde| ≤ |(Nutation jde).1| := by
  unfold NutationInRA
  rw [abs_mul]
  have := abs_cos_le_one (MeanObliquity jde + (Nutation jde).2)
  nlinarith [abs_nonneg (Nutation jde).1]

/-- The epoch J2000 and an instant of the year 1987 are within the hypotheses. -/
example : |J2000Century 2446895.5| ≤ 0.5 := by
  unfold J2000Century
  rw [abs_le]; constructor <;> norm_num

end Verif.Props
