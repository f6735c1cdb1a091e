import Verif.Props.Solar
import Verif.Props.NutationCert
/-
C114, continued: the low-accuracy apparent place of the Sun against aberration and nutation computed by the other packages.
-/
namespace Verif.Props

open Verif.Go Real Verif.Model Verif.Model.Nutation Verif.Model.Solar Verif.Lemmas Verif.Spec

theorem node_close (T : ℝ) (h : |T| ≤ 0.5) : |node T - (125.04452 - 1934.136261 * T) * π / 180| ≤ 0.0001 := by
  have hp := pi_lt_d2
  have hp0 := pi_pos
  obtain ⟨a, b⟩ := abs_le.1 h
  unfold node deg
  rw [abs_le]
  constructor <;> nlinarith

/-- C114.  The apparent longitude is the true one, less 20.4898″/R for aberration, plus the nutation in longitude, to 3 arc seconds, for half a
century either side of 2000. -/
theorem C114_apparent (jde : ℝ) (h : |J2000Century jde| ≤ 0.5) :
    |ApparentLongitude (J2000Century jde) -
      ((TrueLon (J2000Century jde)).1 - 20.4898 * sec / Radius (J2000Century jde) + (Nutation jde).1)| ≤ 3 * sec := by
  have hs := ssec_pos
  have ha := C116_approx jde h
  have hn := node_close _ h
  obtain ⟨e0, e1⟩ := C114_ecc (J2000Century jde) (h.trans (by norm_num))
  obtain ⟨r0, r1⟩ := C114_radius (J2000Century jde) e0 (by linarith)
  obtain ⟨R, hR⟩ : ∃ R, R = Radius (J2000Century jde) := ⟨_, rfl⟩
  rw [← hR] at r0 r1 ⊢
  have r0' : 0.978 ≤ R := by nlinarith
  have r1' : R ≤ 1.022 := by nlinarith
  have hab : |20.4898 / R - 20.484| ≤ 0.48 := by
    rw [abs_le]
    constructor
    · have : 20.004 ≤ 20.4898 / R := by rw [le_div_iff₀ (by linarith)]; linarith
      linarith
    · have : 20.4898 / R ≤ 20.964 := by rw [div_le_iff₀ (by linarith)]; linarith
      linarith
  unfold ApparentLongitude
  unfold ApproxNutation at ha
  dsimp only at ha
  rw [show (jde - 2451545) / 36525 = J2000Century jde from rfl] at ha
  have hd : deg = 3600 * sec := by unfold deg sec; ring
  have hsin := abs_sin_sub_sin (node (J2000Century jde)) ((125.04452 - 1934.136261 * J2000Century jde) * π / 180)
  generalize (125.04452 - 1934.136261 * J2000Century jde) * π / 180 = u at *
  generalize (280.4665 + 36000.7698 * J2000Century jde) * π / 180 = L at *
  generalize (218.3165 + 481267.8813 * J2000Century jde) * π / 180 = N at *
  have q := abs_le.1 (hsin.trans hn)
  have s1 := abs_le.1 (abs_sin_le_one (2 * L))
  have s2 := abs_le.1 (abs_sin_le_one (2 * N))
  have s3 := abs_le.1 (abs_sin_le_one (2 * u))
  have s4 := abs_le.1 (abs_sin_le_one u)
  obtain ⟨a1, a2⟩ := abs_le.1 ha
  obtain ⟨b1, b2⟩ := abs_le.1 hab
  have hdR : 20.4898 * sec / R = sec * (20.4898 / R) := by ring
  rw [hd, hdR, abs_le]
  generalize 20.4898 / R = w at *
  generalize sin (node (J2000Century jde)) = x at *
  generalize sin u = y at *
  generalize sin (2 * L) = y1 at *
  generalize sin (2 * N) = y2 at *
  generalize sin (2 * u) = y3 at *
  have k : |(-20.484 - 17.208 * x) - (-w + (-17.2 * y - 1.32 * y1 - 0.23 * y2 + 0.21 * y3))| ≤ 2.5 := by
    rw [abs_le]; constructor <;> linarith [q.1, q.2, s1.1, s1.2, s2.1, s2.2, s3.1, s3.2, s4.1, s4.2]
  obtain ⟨k1, k2⟩ := abs_le.1 k
  have m1 := mul_le_mul_of_nonneg_right k1 hs.le
  have m2 := mul_le_mul_of_nonneg_right k2 hs.le
  constructor <;> linarith

/-- C114.  The obliquity of `ApparentEquatorial` is the true one, with the nutation in obliquity, to one arc second. -/
theorem C114_apparent_obliquity (jde : ℝ) (h : |J2000Century jde| ≤ 0.5) :
    ∃ ε, |ε - (MeanObliquity jde + (Nutation jde).2)| ≤ 1 * sec ∧
      dir (ApparentEquatorial jde).1 (ApparentEquatorial jde).2 = rotX ε (dir (ApparentLongitude (J2000Century jde)) 0) ∧
      0 ≤ (ApparentEquatorial jde).1 ∧ (ApparentEquatorial jde).1 < 2 * π := by
  have hs := ssec_pos
  have ha := C116_approx_obliquity jde h
  have hn := node_close _ h
  refine ⟨MeanObliquity jde + 0.00256 * deg * cos (node (J2000Century jde)), ?_, ?_, ?_⟩
  · unfold ApproxNutation at ha
    dsimp only at ha
    rw [show (jde - 2451545) / 36525 = J2000Century jde from rfl] at ha
    have hd : deg = 3600 * sec := by unfold deg sec; ring
    have hcos := abs_cos_sub_cos (node (J2000Century jde)) ((125.04452 - 1934.136261 * J2000Century jde) * π / 180)
    generalize (125.04452 - 1934.136261 * J2000Century jde) * π / 180 = u at *
    generalize (280.4665 + 36000.7698 * J2000Century jde) * π / 180 = L at *
    generalize (218.3165 + 481267.8813 * J2000Century jde) * π / 180 = N at *
    have q := abs_le.1 (hcos.trans hn)
    have s1 := abs_le.1 (abs_cos_le_one (2 * L))
    have s2 := abs_le.1 (abs_cos_le_one (2 * N))
    have s3 := abs_le.1 (abs_cos_le_one (2 * u))
    have s4 := abs_le.1 (abs_cos_le_one u)
    obtain ⟨a1, a2⟩ := abs_le.1 ha
    rw [hd, abs_le]
    generalize cos (node (J2000Century jde)) = x at *
    generalize cos u = y at *
    generalize cos (2 * L) = y1 at *
    generalize cos (2 * N) = y2 at *
    generalize cos (2 * u) = y3 at *
    have k : |9.216 * x - (9.2 * y + 0.57 * y1 + 0.1 * y2 - 0.09 * y3)| ≤ 0.8 := by
      rw [abs_le]; constructor <;> linarith [q.1, q.2, s1.1, s1.2, s2.1, s2.2, s3.1, s3.2, s4.1, s4.2]
    obtain ⟨k1, k2⟩ := abs_le.1 k
    have m1 := mul_le_mul_of_nonneg_right k1 hs.le
    have m2 := mul_le_mul_of_nonneg_right k2 hs.le
    constructor <;> linarith
  · unfold ApparentEquatorial
    dsimp only
    generalize ApparentLongitude (J2000Century jde) = s
    generalize MeanObliquity jde + 0.00256 * deg * cos (node (J2000Century jde)) = ε
    rw [dir_mod1, dir_of_xyz]
    · unfold dir
      rw [rotX_vec]
      apply vec_eq <;> simp
    · have e1 := sin_sq_add_cos_sq s
      have e2 := sin_sq_add_cos_sq ε
      linear_combination e1 + sin s ^ 2 * e2
  · obtain ⟨m0, m1, -⟩ := mod1_eq (atan2 (cos (MeanObliquity jde + 0.00256 * deg * cos (node (J2000Century jde))) *
      sin (ApparentLongitude (J2000Century jde))) (cos (ApparentLongitude (J2000Century jde))))
    exact ⟨m0, m1⟩

/-- C114.  `True2000` is the longitude of date less the general precession in longitude since 2000.0 (formula 21.5 with T = 0), to 1.3 arc seconds for
a century and 113 for ten; the anomaly is the same. -/
theorem C114_true2000 (T : ℝ) :
    (True2000 T).2 = (TrueLon T).2 ∧
    |(True2000 T).1 - ((TrueLon T).1 - (5029.0966 * T + 1.11113 * T ^ 2 - 0.000006 * T ^ 3) * sec)| ≤
      (0.12 * |T| + 1.11113 * |T| ^ 2 + 0.000006 * |T| ^ 3) * sec := by
  have hs := ssec_pos
  refine ⟨rfl, ?_⟩
  unfold True2000
  dsimp only
  have hd : deg = 3600 * sec := by unfold deg sec; ring
  rw [hd, show (TrueLon T).1 - 0.01397 * (3600 * sec) * (T * 100) - ((TrueLon T).1 - (5029.0966 * T + 1.11113 * T ^ 2 - 0.000006 * T ^ 3) * sec) =
    ((-0.1034) * T + 1.11113 * T ^ 2 + (-0.000006) * T ^ 3) * sec by ring, abs_mul, abs_of_pos hs]
  refine mul_le_mul_of_nonneg_right ?_ hs.le
  refine (abs_add_three _ _ _).trans ?_
  rw [abs_mul, abs_mul, abs_mul, abs_pow, abs_pow]
  norm_num [abs_of_pos, abs_of_neg]
  have := abs_nonneg T
  linarith

/-- 1992 October 13, the example of the book. -/
example : |J2000Century 2448908.5| ≤ 0.5 := by
  unfold J2000Century
  rw [abs_le]; constructor <;> norm_num

end Verif.Props
