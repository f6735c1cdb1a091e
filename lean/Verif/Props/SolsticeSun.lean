import Verif.Lemmas.PolyQ
import Verif.Lemmas.TrigNum
import Verif.Props.Solstice
import Verif.Props.Nutation
import Verif.Model.Solar
/-
C158: the times of the equinoxes and solstices and the longitude of the Sun.
-/
namespace Verif.Props

open Real Verif.Model Verif.Lemmas Verif.Lemmas.PolyQ

/-- Time in Julian centuries of the mean instant, as a polynomial of the millennium. -/
def tQ (c : List ℚ) : List ℚ := psc (1 / 36525) (padd [-2451545] c)
/-- Mean anomaly of the Sun in degrees at the mean instant, less the reference angle and whole turns. -/
def mQ (c : List ℚ) (ref : ℚ) (k : ℤ) : List ℚ :=
  padd (padd [35752911 / 100000 - ref - 360 * k, -360000] (psc (3599905029 / 100000) (tQ c))) (psc (-1537 / 10000000) (pmul (tQ c) (tQ c)))
/-- The same of the mean longitude and the season. -/
def lQ (c : List ℚ) (q : ℚ) (k : ℤ) : List ℚ :=
  padd (padd [28046646 / 100000 - q - 360 * k, -360000] (psc (3600076983 / 100000) (tQ c))) (psc (3032 / 10000000) (pmul (tQ c) (tQ c)))
/-- π/180. -/
def rQ : ℚ := 3141592653589793 / 180000000000000000
/-- Approximate sine and cosine of the mean anomaly. -/
def sQ (d : List ℚ) (s0 c0 : ℚ) : List ℚ := padd (psc s0 (pcos d)) (psc c0 (psin d))
def cQ (d : List ℚ) (s0 c0 : ℚ) : List ℚ := padd (psc c0 (pcos d)) (psc (-s0) (psin d))
/-- Longitude of the Sun at the mean instant, in degrees, less the value of the season. -/
def resQ (c d : List ℚ) (q s0 c0 : ℚ) (k : ℤ) : List ℚ :=
  let T := tQ c
  let s := sQ d s0 c0
  let co := cQ d s0 c0
  padd (padd (lQ c q k) [-569 / 100000])
    (pmul s (padd (padd (padd [1914602 / 1000000] (psc (-4817 / 1000000) T)) (psc (-14 / 1000000) (pmul T T)))
      (pmul (psc 2 co) (padd [19993 / 1000000] (psc (-101 / 1000000) T)))))
/-- What is computed. -/
def okQ (c d : List ℚ) (q ref s0 c0 : ℚ) (kL kM : ℤ) (B : ℚ) : Bool :=
  decide (l1 (tQ c) ≤ 31) && decide (l1 (mQ c ref kM) ≤ 40) && decide (l1 (padd (psc rQ (mQ c ref kM)) (psc (-1) d)) ≤ 1 / 10 ^ 7) && decide (l1 d ≤ 6 / 10) &&
  decide (l1 (resQ c d q s0 c0 kL) ≤ B) && decide (|s0| ≤ 1) && decide (|c0| ≤ 1)

theorem rQ_err : |deg - (rQ : ℝ)| ≤ 1e-15 := by
  have h1 := pi_gt_d20
  have h2 := pi_lt_d20
  unfold deg rQ
  push_cast
  rw [abs_le]
  constructor <;> norm_num at * <;> linarith

/-- Sine and cosine of the mean anomaly. -/
theorem anomaly_near {c d : List ℚ} {ref s0 c0 : ℚ} {k n : ℤ} {Y : ℝ} (hY : |Y| ≤ 1) (hn : (n : ℝ) = 1000 * Y)
    (hs : |sin ((ref : ℝ) * deg) - s0| ≤ 1e-8) (hc : |cos ((ref : ℝ) * deg) - c0| ≤ 1e-8) (hs0 : |s0| ≤ 1) (hc0 : |c0| ≤ 1)
    (h1 : l1 (mQ c ref k) ≤ 40) (h2 : l1 (padd (psc rQ (mQ c ref k)) (psc (-1) d)) ≤ 1 / 10 ^ 7) (h3 : l1 d ≤ 6 / 10) :
    |sin (Solar.MeanAnomaly (ev (tQ c) Y)) - ev (sQ d s0 c0) Y| ≤ 4e-7 ∧ |cos (Solar.MeanAnomaly (ev (tQ c) Y)) - ev (cQ d s0 c0) Y| ≤ 4e-7 := by
  obtain ⟨T, hT⟩ : ∃ T, T = ev (tQ c) Y := ⟨_, rfl⟩
  obtain ⟨x, hx⟩ : ∃ x, x = ev d Y := ⟨_, rfl⟩
  obtain ⟨m, hm⟩ : ∃ m, m = ev (mQ c ref k) Y := ⟨_, rfl⟩
  have hM : Solar.MeanAnomaly T = (ref : ℝ) * deg + m * deg + ((k + n : ℤ) : ℝ) * (2 * π) := by
    have e : m = (357.52911 - ref - 360 * k) + Y * (-360000) + 35999.05029 * T + (-0.0001537) * (T * T) := by
      rw [hm, hT]
      simp only [mQ, ev_padd, ev_psc, ev_pmul, ev]
      push_cast
      ring
    rw [e]
    unfold Solar.MeanAnomaly deg
    simp only [hornerR, List.foldr]
    push_cast
    rw [hn]
    ring
  have b1 : |m| ≤ 40 := by
    have := abs_ev_le (mQ c ref k) hY
    have h : (l1 (mQ c ref k) : ℝ) ≤ ((40 : ℚ) : ℝ) := by exact_mod_cast h1
    rw [hm]; push_cast at h; linarith
  have b2 : |(rQ : ℝ) * m - x| ≤ 1e-7 := by
    have := abs_ev_le (padd (psc rQ (mQ c ref k)) (psc (-1) d)) hY
    have h : (l1 (padd (psc rQ (mQ c ref k)) (psc (-1) d)) : ℝ) ≤ ((1 / 10 ^ 7 : ℚ) : ℝ) := by exact_mod_cast h2
    rw [ev_padd, ev_psc, ev_psc, ← hm, ← hx] at this
    push_cast at this h
    have e : (rQ : ℝ) * m - x = rQ * m + -1 * x := by ring
    rw [e]
    norm_num at *
    linarith
  have b3 : |m * deg - x| ≤ 1.1e-7 := by
    have e : m * deg - x = m * (deg - rQ) + (rQ * m - x) := by ring
    rw [e]
    have h1 := abs_add_le (m * (deg - rQ)) (rQ * m - x)
    have h2 : |m * (deg - rQ)| ≤ 40 * 1e-15 := by
      rw [abs_mul]
      exact mul_le_mul b1 rQ_err (abs_nonneg _) (by norm_num)
    norm_num at *
    linarith
  obtain ⟨t1, t2⟩ := sin_near h3 hY
  rw [← hx] at t1 t2
  have q1 : |(s0 : ℝ)| ≤ 1 := by exact_mod_cast hs0
  have q2 : |(c0 : ℝ)| ≤ 1 := by exact_mod_cast hc0
  have main : ∀ {a b A B p r : ℝ}, |a| ≤ 1 → |b| ≤ 1 → |A - a| ≤ 1e-8 → |B - b| ≤ 1e-8 → |cos x - p| ≤ 1e-7 → |sin x - r| ≤ 1e-7 →
      |A * cos x + B * sin x - (a * p + b * r)| ≤ 2.8e-7 := by
    intro a b A B p r ha hb hA hB hp hr
    have e : A * cos x + B * sin x - (a * p + b * r) = (A - a) * cos x + (B - b) * sin x + a * (cos x - p) + b * (sin x - r) := by ring
    rw [e]
    have f1 : |(A - a) * cos x| ≤ 1e-8 := by
      rw [abs_mul]; exact (mul_le_of_le_one_right (abs_nonneg _) (abs_cos_le_one _)).trans hA
    have f2 : |(B - b) * sin x| ≤ 1e-8 := by
      rw [abs_mul]; exact (mul_le_of_le_one_right (abs_nonneg _) (abs_sin_le_one _)).trans hB
    have f3 : |a * (cos x - p)| ≤ 1e-7 := by
      rw [abs_mul]; exact (mul_le_of_le_one_left (abs_nonneg _) ha).trans hp
    have f4 : |b * (sin x - r)| ≤ 1e-7 := by
      rw [abs_mul]; exact (mul_le_of_le_one_left (abs_nonneg _) hb).trans hr
    obtain ⟨f1, f1'⟩ := abs_le.1 f1
    obtain ⟨f2, f2'⟩ := abs_le.1 f2
    obtain ⟨f3, f3'⟩ := abs_le.1 f3
    obtain ⟨f4, f4'⟩ := abs_le.1 f4
    rw [abs_le]
    constructor <;> norm_num at * <;> linarith
  rw [← hT, hM, sin_add_int_mul_two_pi, cos_add_int_mul_two_pi]
  have l1' := abs_sin_sub_sin ((ref : ℝ) * deg + m * deg) ((ref : ℝ) * deg + x)
  have l2' := abs_cos_sub_cos ((ref : ℝ) * deg + m * deg) ((ref : ℝ) * deg + x)
  rw [add_sub_add_left_eq_sub] at l1' l2'
  constructor
  · have g := main q1 q2 hs hc t2 t1
    rw [← sin_add] at g
    have e : ev (sQ d s0 c0) Y = s0 * ev (pcos d) Y + c0 * ev (psin d) Y := by simp only [sQ, ev_padd, ev_psc]
    rw [e]
    obtain ⟨g1, g2⟩ := abs_le.1 g
    obtain ⟨g3, g4⟩ := abs_le.1 (l1'.trans b3)
    rw [abs_le]
    constructor <;> norm_num at * <;> linarith
  · have hs' : |(-sin ((ref : ℝ) * deg)) - (-(s0 : ℝ))| ≤ 1e-8 := by rw [← abs_neg]; convert hs using 2; ring
    have g := main q2 (by rw [abs_neg]; exact q1) hc hs' t2 t1
    have e0 : cos ((ref : ℝ) * deg) * cos x + -sin ((ref : ℝ) * deg) * sin x = cos ((ref : ℝ) * deg + x) := by rw [cos_add]; ring
    rw [e0] at g
    have e : ev (cQ d s0 c0) Y = c0 * ev (pcos d) Y + -s0 * ev (psin d) Y := by simp only [cQ, ev_padd, ev_psc]; push_cast; ring
    rw [e]
    obtain ⟨g1, g2⟩ := abs_le.1 g
    obtain ⟨g3, g4⟩ := abs_le.1 (l2'.trans b3)
    rw [abs_le]
    constructor <;> norm_num at * <;> linarith

/-- The coefficients of the equation of the centre. -/
theorem centre_coeff {T : ℝ} (h : |T| ≤ 31) :
    |hornerR T [1.914602, -0.004817, -0.000014]| ≤ 2.06 ∧ |0.019993 - 0.000101 * T| ≤ 0.0232 := by
  simp only [hornerR, List.foldr]
  obtain ⟨h1, h2⟩ := abs_le.1 h
  constructor <;> rw [abs_le] <;> constructor <;> nlinarith

/-- The longitude of the Sun at the mean instant of a season. -/
theorem season_mean {c d : List ℚ} {q ref s0 c0 : ℚ} {kL kM n : ℤ} {B : ℚ} {Y : ℝ} (hY : |Y| ≤ 1) (hn : (n : ℝ) = 1000 * Y)
    (hs : |sin ((ref : ℝ) * deg) - s0| ≤ 1e-8) (hc : |cos ((ref : ℝ) * deg) - c0| ≤ 1e-8) (ok : okQ c d q ref s0 c0 kL kM B = true) :
    let T := ev (tQ c) Y
    |T| ≤ 31 ∧ |Solar.meanLon T + Solar.center T - 0.00569 * deg - (q * deg + ((kL + n : ℤ) : ℝ) * (2 * π))| ≤ (B + 0.000291) * deg := by
  simp only [okQ, Bool.and_eq_true, decide_eq_true_eq] at ok
  obtain ⟨⟨⟨⟨⟨⟨o0, o1⟩, o2⟩, o3⟩, o4⟩, o5⟩, o6⟩ := ok
  obtain ⟨a1, a2⟩ := anomaly_near hY hn hs hc o5 o6 o1 o2 o3
  obtain ⟨T, hT⟩ : ∃ T, T = ev (tQ c) Y := ⟨_, rfl⟩
  rw [← hT] at a1 a2 ⊢
  intro T'
  have hT31 : |T| ≤ 31 := by
    have := abs_ev_le (tQ c) hY
    have h : (l1 (tQ c) : ℝ) ≤ ((31 : ℚ) : ℝ) := by exact_mod_cast o0
    rw [hT]; push_cast at h; linarith
  refine ⟨hT31, ?_⟩
  change |Solar.meanLon T + Solar.center T - 0.00569 * deg - (q * deg + ((kL + n : ℤ) : ℝ) * (2 * π))| ≤ (B + 0.000291) * deg
  obtain ⟨A1, A2⟩ := centre_coeff hT31
  obtain ⟨A, hA⟩ : ∃ A, A = hornerR T [1.914602, -0.004817, -0.000014] := ⟨_, rfl⟩
  obtain ⟨D, hD⟩ : ∃ D, D = 0.019993 - 0.000101 * T := ⟨_, rfl⟩
  obtain ⟨s, hs'⟩ : ∃ s, s = ev (sQ d s0 c0) Y := ⟨_, rfl⟩
  obtain ⟨co, hc'⟩ : ∃ co, co = ev (cQ d s0 c0) Y := ⟨_, rfl⟩
  rw [← hA] at A1
  rw [← hD] at A2
  rw [← hs'] at a1
  rw [← hc'] at a2
  have hr : |ev (resQ c d q s0 c0 kL) Y| ≤ B := (abs_ev_le _ hY).trans (by exact_mod_cast o4)
  obtain ⟨r, hr'⟩ : ∃ r, r = ev (resQ c d q s0 c0 kL) Y := ⟨_, rfl⟩
  rw [← hr'] at hr
  have er : r = (280.46646 - q - 360 * kL) + Y * (-360000) + 36000.76983 * T + 0.0003032 * (T * T) - 0.00569 + s * (A + 2 * co * D) := by
    rw [hr', hA, hD, hs', hc', hT]
    simp only [resQ, lQ, ev_padd, ev_psc, ev_pmul, ev, hornerR, List.foldr]
    push_cast
    ring
  obtain ⟨M, hM⟩ : ∃ M, M = Solar.MeanAnomaly T := ⟨_, rfl⟩
  rw [← hM] at a1 a2
  have ef : Solar.meanLon T + Solar.center T - 0.00569 * deg - (q * deg + ((kL + n : ℤ) : ℝ) * (2 * π)) =
      (r + (A * (sin M - s) + 2 * D * (sin M * (cos M - co) + (sin M - s) * co) + 0.000289 * sin (M * 3))) * deg := by
    unfold Solar.meanLon Solar.center
    dsimp only
    rw [← hM, ← hA, ← hD, er, mul_comm M 2, sin_two_mul]
    simp only [hornerR, List.foldr]
    push_cast
    rw [hn]
    have hdeg : (2 * π : ℝ) = 360 * deg := by unfold deg; ring
    rw [hdeg]
    ring
  have hd : 0 < deg := by unfold deg; positivity
  rw [ef, abs_mul, abs_of_pos hd]
  refine mul_le_mul_of_nonneg_right ?_ hd.le
  have w1 : |A * (sin M - s)| ≤ 2.06 * 4e-7 := by rw [abs_mul]; exact mul_le_mul A1 a1 (abs_nonneg _) (by norm_num)
  have hco : |co| ≤ 1.1 := by
    have h := abs_le.1 a2
    have h2 := abs_le.1 (abs_cos_le_one M)
    rw [abs_le]
    constructor <;> norm_num at * <;> linarith
  have w2 : |sin M * (cos M - co)| ≤ 1 * 4e-7 := by rw [abs_mul]; exact mul_le_mul (abs_sin_le_one _) a2 (abs_nonneg _) (by norm_num)
  have w3 : |(sin M - s) * co| ≤ 4e-7 * 1.1 := by rw [abs_mul]; exact mul_le_mul a1 hco (abs_nonneg _) (by norm_num)
  have w4 : |2 * D * (sin M * (cos M - co) + (sin M - s) * co)| ≤ 2 * 0.0232 * (1 * 4e-7 + 4e-7 * 1.1) := by
    rw [abs_mul, abs_mul, abs_two]
    exact mul_le_mul (by linarith) ((abs_add_le _ _).trans (add_le_add w2 w3)) (abs_nonneg _) (by norm_num)
  have w5 : |0.000289 * sin (M * 3)| ≤ 0.000289 := by
    rw [abs_mul, abs_of_pos (by norm_num : (0 : ℝ) < 0.000289)]
    exact mul_le_of_le_one_right (by norm_num) (abs_sin_le_one _)
  clear ef er
  obtain ⟨w1, w1'⟩ := abs_le.1 w1
  obtain ⟨w4, w4'⟩ := abs_le.1 w4
  obtain ⟨w5, w5'⟩ := abs_le.1 w5
  obtain ⟨hr, hr2⟩ := abs_le.1 hr
  rw [abs_le]
  constructor <;> norm_num at * <;> linarith

set_option maxHeartbeats 1000000 in
/-- The motion of the Sun in a short time, in degrees: between 34676 and 37326 degrees a century. -/
theorem sun_rate {T T' : ℝ} (h : |T| ≤ 31) (h' : |T' - T| ≤ 1e-6) :
    |Solar.meanLon T' + Solar.center T' - (Solar.meanLon T + Solar.center T) - 36000.77 * (T' - T) * deg| ≤ 1324.4 * |T' - T| * deg := by
  obtain ⟨u, hu⟩ : ∃ u, u = T' - T := ⟨_, rfl⟩
  have hT' : T' = T + u := by rw [hu]; ring
  obtain ⟨t1, t2⟩ := abs_le.1 h
  rw [← hu] at h' ⊢
  obtain ⟨u1, u2⟩ := abs_le.1 h'
  have hd : 0 < deg := by unfold deg; positivity
  have hd1 : deg ≤ 0.017454 := by have := pi_lt_d6; unfold deg; linarith
  obtain ⟨A1, A2⟩ := centre_coeff h
  obtain ⟨A, hA⟩ : ∃ A, A = hornerR T [1.914602, -0.004817, -0.000014] := ⟨_, rfl⟩
  obtain ⟨D, hD⟩ : ∃ D, D = 0.019993 - 0.000101 * T := ⟨_, rfl⟩
  obtain ⟨M, hM⟩ : ∃ M, M = Solar.MeanAnomaly T := ⟨_, rfl⟩
  obtain ⟨M', hM'⟩ : ∃ M', M' = Solar.MeanAnomaly T' := ⟨_, rfl⟩
  rw [← hA] at A1
  rw [← hD] at A2
  have au : 0 ≤ |u| := abs_nonneg u
  have dM : |M' - M| ≤ 628.35 * |u| := by
    have e : M' - M = (35999.05029 - 0.0001537 * (2 * T + u)) * deg * u := by
      rw [hM, hM', hT']; unfold Solar.MeanAnomaly; simp only [hornerR, List.foldr]; ring
    rw [e, abs_mul]
    refine mul_le_mul_of_nonneg_right ?_ au
    rw [abs_of_nonneg (by refine mul_nonneg ?_ hd.le; norm_num at *; nlinarith)]
    have : 35999.05029 - 0.0001537 * (2 * T + u) ≤ 35999.07 := by norm_num at *; nlinarith
    calc _ ≤ 35999.07 * deg := mul_le_mul_of_nonneg_right this hd.le
      _ ≤ 628.35 := by nlinarith
  have s1 : |sin M' - sin M| ≤ 628.35 * |u| := (abs_sin_sub_sin _ _).trans dM
  have s2 : |sin (M' * 2) - sin (M * 2)| ≤ 1256.7 * |u| := by
    have := abs_sin_sub_sin (M' * 2) (M * 2)
    rw [show M' * 2 - M * 2 = (M' - M) * 2 by ring, abs_mul, abs_two] at this
    linarith
  have s3 : |sin (M' * 3) - sin (M * 3)| ≤ 1885.05 * |u| := by
    have := abs_sin_sub_sin (M' * 3) (M * 3)
    rw [show M' * 3 - M * 3 = (M' - M) * 3 by ring, abs_mul, abs_of_pos (by norm_num : (0 : ℝ) < 3)] at this
    linarith
  have e : Solar.meanLon T' + Solar.center T' - (Solar.meanLon T + Solar.center T) - 36000.77 * u * deg =
      ((-0.00017 + 0.0003032 * (2 * T + u)) * u + (A * (sin M' - sin M) + (-0.004817 - 0.000014 * (2 * T + u)) * sin M' * u) +
        (D * (sin (M' * 2) - sin (M * 2)) + -0.000101 * sin (M' * 2) * u) + 0.000289 * (sin (M' * 3) - sin (M * 3))) * deg := by
    unfold Solar.meanLon Solar.center
    dsimp only
    rw [← hM, ← hM', hA, hD, hT']
    simp only [hornerR, List.foldr]
    ring
  rw [e, abs_mul, abs_of_pos hd]
  refine mul_le_mul_of_nonneg_right ?_ hd.le
  have c0 : |(-0.00017 + 0.0003032 * (2 * T + u)) * u| ≤ 0.02 * |u| := by
    rw [abs_mul]
    refine mul_le_mul_of_nonneg_right ?_ au
    rw [abs_le]; constructor <;> norm_num at * <;> nlinarith
  have c1 : |A * (sin M' - sin M)| ≤ 2.06 * (628.35 * |u|) := by rw [abs_mul]; exact mul_le_mul A1 s1 (abs_nonneg _) (by norm_num)
  have c2 : |(-0.004817 - 0.000014 * (2 * T + u)) * sin M' * u| ≤ 0.006 * |u| := by
    rw [abs_mul, abs_mul]
    refine mul_le_mul_of_nonneg_right ?_ au
    refine (mul_le_of_le_one_right (abs_nonneg _) (abs_sin_le_one _)).trans ?_
    rw [abs_le]; constructor <;> norm_num at * <;> nlinarith
  have c3 : |D * (sin (M' * 2) - sin (M * 2))| ≤ 0.0232 * (1256.7 * |u|) := by rw [abs_mul]; exact mul_le_mul A2 s2 (abs_nonneg _) (by norm_num)
  have c4 : |-0.000101 * sin (M' * 2) * u| ≤ 0.000101 * |u| := by
    rw [abs_mul, abs_mul]
    refine mul_le_mul_of_nonneg_right ?_ au
    rw [abs_neg, abs_of_pos (by norm_num : (0 : ℝ) < 0.000101)]
    exact mul_le_of_le_one_right (by norm_num) (abs_sin_le_one _)
  have c5 : |0.000289 * (sin (M' * 3) - sin (M * 3))| ≤ 0.000289 * (1885.05 * |u|) := by
    rw [abs_mul, abs_of_pos (by norm_num : (0 : ℝ) < 0.000289)]
    exact mul_le_mul_of_nonneg_left s3 (by norm_num)
  clear e
  obtain ⟨c0, c0'⟩ := abs_le.1 c0
  obtain ⟨c1, c1'⟩ := abs_le.1 c1
  obtain ⟨c2, c2'⟩ := abs_le.1 c2
  obtain ⟨c3, c3'⟩ := abs_le.1 c3
  obtain ⟨c4, c4'⟩ := abs_le.1 c4
  obtain ⟨c5, c5'⟩ := abs_le.1 c5
  clear A1 A2 dM s1 s2 s3 h h' hu hT' hA hD hM hM'
  rw [abs_le]
  constructor <;> norm_num at * <;> linarith

/-- A quotient of two numbers near one. -/
theorem quot_near {x v D a : ℝ} (hx : |x - 0.985647| ≤ 0.03628) (hD : |D - 1| ≤ 0.0341) (hv : |v| ≤ a) :
    |x * (v / D)| ≤ 1.0581 * a ∧ |x * (0.00485 / D) - 0.00478| ≤ 0.000354 := by
  obtain ⟨x1, x2⟩ := abs_le.1 hx
  obtain ⟨d1, d2⟩ := abs_le.1 hD
  have hp : 0 < D := by linarith
  have ha : 0 ≤ a := (abs_nonneg v).trans hv
  have r1 : x / D ≤ 1.0581 := by rw [div_le_iff₀ hp]; nlinarith
  have r2 : 0.9180 ≤ x / D := by rw [le_div_iff₀ hp]; nlinarith
  constructor
  · rw [show x * (v / D) = x / D * v by ring, abs_mul, abs_of_pos (by linarith)]
    exact mul_le_mul r1 hv (abs_nonneg _) (by norm_num)
  · rw [show x * (0.00485 / D) = x / D * 0.00485 by ring, abs_le]
    constructor <;> linarith

/-- From the mean instant of the season to the instant. -/
theorem season_apparent {y : ℤ} {c : List ℝ} {q E : ℝ} {k : ℤ} (hT : |J2000Century (hornerR ((y : ℝ) * 0.001) c)| ≤ 31)
    (hm : |Solar.meanLon (J2000Century (hornerR ((y : ℝ) * 0.001) c)) + Solar.center (J2000Century (hornerR ((y : ℝ) * 0.001) c)) - 0.00569 * deg -
      (q + (k : ℝ) * (2 * π))| ≤ E * deg) :
    ∃ k' : ℤ, |Solar.ApparentLongitude (J2000Century (Solstice.eq y c)) - (q + (k' : ℝ) * (2 * π))| ≤ (E + 0.01616) * deg := by
  have hcorr := solstice_corr y c
  obtain ⟨J, hJ⟩ : ∃ J, J = hornerR ((y : ℝ) * 0.001) c := ⟨_, rfl⟩
  rw [← hJ] at hT hm hcorr
  obtain ⟨T, hTd⟩ : ∃ T, T = J2000Century J := ⟨_, rfl⟩
  rw [← hTd] at hT hm
  obtain ⟨s, hs⟩ : ∃ s, s = Solstice.eq y c - J := ⟨_, rfl⟩
  rw [← hs] at hcorr
  obtain ⟨T', hT'⟩ : ∃ T', T' = J2000Century (Solstice.eq y c) := ⟨_, rfl⟩
  have hu : T' - T = s / 36525 := by rw [hT', hTd, hs]; unfold J2000Century; ring
  have hu6 : |T' - T| ≤ 1e-6 := by
    rw [hu, abs_div, abs_of_pos (by norm_num : (0 : ℝ) < 36525), div_le_iff₀ (by norm_num)]
    norm_num at *; linarith
  have rate := sun_rate hT hu6
  rw [← hT']
  -- the correction
  obtain ⟨S', D, hS', hD, hse⟩ : ∃ S' D : ℝ, |S'| ≤ 1493 ∧ |D - 1| ≤ 0.0341 ∧ s = 0.00001 * (485 * sin (Solar.node T) + S') / D := by
    refine ⟨series cos (Solstice.terms.tail.map fun t => (t.1, (t.2.1 + t.2.2 * T) * π / 180)),
      1 + 0.0334 * cos (35999.373 * π / 180 * T - 2.47 * π / 180) + 0.0007 * cos (2 * (35999.373 * π / 180 * T - 2.47 * π / 180)), ?_, ?_, ?_⟩
    · refine (series_cos_abs _).trans ?_
      rw [List.map_map]
      unfold Solstice.terms
      simp only [List.tail_cons, List.map_cons, List.map_nil, List.sum_cons, List.sum_nil, Function.comp_apply]
      norm_num
    · have g1 := abs_le.1 (abs_cos_le_one (35999.373 * π / 180 * T - 2.47 * π / 180))
      have g2 := abs_le.1 (abs_cos_le_one (2 * (35999.373 * π / 180 * T - 2.47 * π / 180)))
      rw [abs_le]; constructor <;> linarith
    · rw [hs]
      unfold Solstice.eq
      dsimp only
      rw [← hJ, ← hTd, add_sub_cancel_left]
      congr 2
      have e1 : Solstice.terms = (485, 324.96, 1934.136) :: Solstice.terms.tail := by unfold Solstice.terms; rfl
      rw [e1, List.map_cons, series_cons]
      dsimp only [List.tail_cons]
      congr 2
      have e2 : (324.96 + 1934.136 * T) * π / 180 = π / 2 - Solar.node T + 2 * π := by unfold Solar.node deg; ring
      rw [e2, cos_add_two_pi, cos_pi_div_two_sub]
  have hd : 0 < deg := by unfold deg; positivity
  -- the rate as a number
  obtain ⟨x, hx, hxe⟩ : ∃ x : ℝ, |x - 0.985647| ≤ 0.03628 ∧
      Solar.meanLon T' + Solar.center T' - (Solar.meanLon T + Solar.center T) = x * s * deg := by
    by_cases h0 : s = 0
    · refine ⟨0.985647, by norm_num, ?_⟩
      rw [h0] at hu
      have : T' = T := by rw [zero_div] at hu; linarith
      rw [this, h0]; ring
    · refine ⟨(Solar.meanLon T' + Solar.center T' - (Solar.meanLon T + Solar.center T)) / (s * deg), ?_, ?_⟩
      · rw [hu] at rate
        have hsd : 0 < |s| * deg := mul_pos (abs_pos.2 h0) hd
        have hsn : s * deg ≠ 0 := mul_ne_zero h0 hd.ne'
        have e : (Solar.meanLon T' + Solar.center T' - (Solar.meanLon T + Solar.center T)) / (s * deg) - 36000.77 / 36525 =
            (Solar.meanLon T' + Solar.center T' - (Solar.meanLon T + Solar.center T) - 36000.77 * (s / 36525) * deg) / (s * deg) := by
          field_simp
        have : |(Solar.meanLon T' + Solar.center T' - (Solar.meanLon T + Solar.center T)) / (s * deg) - 36000.77 / 36525| ≤ 1324.4 / 36525 := by
          rw [e, abs_div, abs_mul s, abs_of_pos hd, div_le_iff₀ hsd]
          refine rate.trans (le_of_eq ?_)
          rw [abs_div, abs_of_pos (by norm_num : (0 : ℝ) < 36525)]
          ring
        obtain ⟨f1, f2⟩ := abs_le.1 this
        rw [abs_le]
        constructor <;> linarith
      · field_simp
  have hn : |sin (Solar.node T') - sin (Solar.node T)| ≤ 0.0001 := by
    refine (abs_sin_sub_sin _ _).trans ?_
    have e : Solar.node T' - Solar.node T = -1934.136 * deg * (T' - T) := by unfold Solar.node; ring
    have hd1 : deg ≤ 0.01746 := by have := pi_lt_d6; unfold deg; linarith
    rw [e, abs_mul, abs_mul, abs_neg, abs_of_pos hd, abs_of_pos (by norm_num : (0 : ℝ) < 1934.136)]
    calc 1934.136 * deg * |T' - T| ≤ 1934.136 * 0.01746 * 1e-6 := by
          refine mul_le_mul (mul_le_mul_of_nonneg_left hd1 (by norm_num)) hu6 (abs_nonneg _) (by norm_num)
      _ ≤ 0.0001 := by norm_num
  have hS2 : |0.00001 * S'| ≤ 0.01493 := by rw [abs_mul, abs_of_pos (by norm_num : (0 : ℝ) < 0.00001)]; linarith
  obtain ⟨z1, z2⟩ := quot_near hx hD hS2
  obtain ⟨-, -, j, hj⟩ := Verif.Go.mod1_eq (Solar.meanLon T' + Solar.center T')
  refine ⟨k - j, ?_⟩
  unfold Solar.ApparentLongitude Solar.TrueLon
  dsimp only
  obtain ⟨w, hw⟩ : ∃ w, w = Solar.meanLon T + Solar.center T - 0.00569 * deg - (q + (k : ℝ) * (2 * π)) := ⟨_, rfl⟩
  rw [← hw] at hm
  have ef : Verif.Go.mod1 (Solar.meanLon T' + Solar.center T') - 0.00569 * deg - 0.00478 * deg * sin (Solar.node T') - (q + ((k - j : ℤ) : ℝ) * (2 * π)) =
      w + (x * (0.00001 * S' / D) + (x * (0.00485 / D) - 0.00478) * sin (Solar.node T) - 0.00478 * (sin (Solar.node T') - sin (Solar.node T))) * deg := by
    have e1 : Verif.Go.mod1 (Solar.meanLon T' + Solar.center T') = w + 0.00569 * deg + (q + (k : ℝ) * (2 * π)) + x * s * deg - j * (2 * π) := by
      rw [← hxe, hw]; linarith
    rw [e1, hse]
    push_cast
    ring
  rw [ef, add_mul]
  refine (abs_add_le _ _).trans (add_le_add hm ?_)
  rw [abs_mul, abs_of_pos hd]
  refine mul_le_mul_of_nonneg_right ?_ hd.le
  have v1 : |(x * (0.00485 / D) - 0.00478) * sin (Solar.node T)| ≤ 0.000354 := by
    rw [abs_mul]; exact (mul_le_of_le_one_right (abs_nonneg _) (abs_sin_le_one _)).trans z2
  clear ef hse hxe hw hj
  obtain ⟨v1, v1'⟩ := abs_le.1 v1
  obtain ⟨z1, z1'⟩ := abs_le.1 z1
  obtain ⟨hn, hn'⟩ := abs_le.1 hn
  rw [abs_le]
  constructor <;> linarith

theorem season_case {c : List ℝ} {cq d : List ℚ} {q ref s0 c0 : ℚ} {kL kM y : ℤ} {B : ℚ} (hev : ∀ Y, hornerR Y c = ev cq Y)
    (h0 : -1000 ≤ y) (h1 : y ≤ 1000)
    (hs : |sin ((ref : ℝ) * deg) - s0| ≤ 1e-8) (hc : |cos ((ref : ℝ) * deg) - c0| ≤ 1e-8) (ok : okQ cq d q ref s0 c0 kL kM B = true) :
    |J2000Century (hornerR ((y : ℝ) * 0.001) c)| ≤ 31 ∧
    ∃ k : ℤ, |Solar.meanLon (J2000Century (hornerR ((y : ℝ) * 0.001) c)) + Solar.center (J2000Century (hornerR ((y : ℝ) * 0.001) c)) - 0.00569 * deg -
      (q * deg + (k : ℝ) * (2 * π))| ≤ (B + 0.000291) * deg := by
  have y0 : (-1000 : ℝ) ≤ y := by exact_mod_cast h0
  have y1 : (y : ℝ) ≤ 1000 := by exact_mod_cast h1
  have hY : |(y : ℝ) * 0.001| ≤ 1 := by rw [abs_le]; constructor <;> linarith
  have hn : (y : ℝ) = 1000 * ((y : ℝ) * 0.001) := by ring
  obtain ⟨a, b⟩ := season_mean hY hn hs hc ok
  have e : ev (tQ cq) ((y : ℝ) * 0.001) = J2000Century (hornerR ((y : ℝ) * 0.001) c) := by
    rw [hev]
    simp only [tQ, ev_psc, ev_padd, ev]
    unfold J2000Century
    push_cast
    ring
  rw [e] at a b
  exact ⟨a, _, b⟩

theorem sqrt3_d9 : (1.732050807 : ℝ) ≤ √3 ∧ √3 ≤ (1.732050808 : ℝ) :=
  ⟨Real.le_sqrt_of_sq_le (by norm_num), Real.sqrt_le_iff.2 ⟨by norm_num, by norm_num⟩⟩

theorem trig30 : sin (30 * deg) = 1 / 2 ∧ cos (30 * deg) = √3 / 2 ∧ sin (120 * deg) = √3 / 2 ∧ cos (120 * deg) = -(1 / 2) ∧
    sin (210 * deg) = -(1 / 2) ∧ cos (210 * deg) = -(√3 / 2) ∧ sin (300 * deg) = -(√3 / 2) ∧ cos (300 * deg) = 1 / 2 ∧
    sin (90 * deg) = 1 ∧ cos (90 * deg) = 0 ∧ sin (180 * deg) = 0 ∧ cos (180 * deg) = -1 ∧ sin (270 * deg) = -1 ∧ cos (270 * deg) = 0 := by
  have a1 : 30 * deg = π / 6 := by unfold deg; ring
  have a2 : 120 * deg = π / 6 + π / 2 := by unfold deg; ring
  have a3 : 210 * deg = π / 6 + π := by unfold deg; ring
  have a4 : 300 * deg = π / 6 + π / 2 + π := by unfold deg; ring
  have a5 : 90 * deg = π / 2 := by unfold deg; ring
  have a6 : 180 * deg = π := by unfold deg; ring
  have a7 : 270 * deg = π / 2 + π := by unfold deg; ring
  rw [a1, a2, a3, a4, a5, a6, a7]
  simp only [sin_add_pi, cos_add_pi, sin_add_pi_div_two, cos_add_pi_div_two, sin_pi_div_six, cos_pi_div_six, sin_pi_div_two, cos_pi_div_two, sin_pi, cos_pi]
  norm_num

/-- The longitude of the Sun at the mean instant of the season is the value of the season, within `E` degrees. -/
def MeanNear (y : ℤ) (c : List ℝ) (q E : ℝ) : Prop :=
  |J2000Century (hornerR ((y : ℝ) * 0.001) c)| ≤ 31 ∧
  ∃ k : ℤ, |Solar.meanLon (J2000Century (hornerR ((y : ℝ) * 0.001) c)) + Solar.center (J2000Century (hornerR ((y : ℝ) * 0.001) c)) - 0.00569 * deg -
    (q + (k : ℝ) * (2 * π))| ≤ E * deg

theorem mc0_mean (y : ℤ) (h0 : -1000 ≤ y) (h1 : y ≤ 1000) : MeanNear y Solstice.mc0 0 0.0075 := by
  obtain ⟨b1, b2, b3, b4, b5, b6, b7, b8, b9, b10, b11, b12, b13, b14⟩ := trig30
  obtain ⟨r1, r2⟩ := sqrt3_d9
  obtain ⟨a, k, hk⟩ := season_case (c := Solstice.mc0) (cq := [172113929189 / 100000, 1826210687 / 5000, 3067 / 50000, 111 / 100000, -71 / 100000])
    (d := [-115672141 / 625000000, -2999350071 / 10000000000, 1573847 / 2000000000, 190941 / 10000000000, -61067 / 5000000000]) (q := 0) (ref := 120) (s0 := 4330127019 / 5000000000) (c0 := -1 / 2) (kL := -1999) (kM := -1999) (y := y) (B := 71 / 10000)
    (fun Y => by simp only [Solstice.mc0, hornerR, List.foldr, ev]; push_cast; ring) h0 h1 (by push_cast; rw [b3, abs_le]; constructor <;> norm_num at r1 r2 ⊢ <;> linarith) (by push_cast; rw [b4, abs_le]; constructor <;> norm_num at r1 r2 ⊢ <;> linarith) (by decide +kernel)
  have hq : 0 * deg = 0 := by unfold deg; ring
  refine ⟨a, k, ?_⟩
  push_cast at hk
  rw [hq] at hk
  have hd : 0 < deg := by unfold deg; positivity
  linarith

theorem mc2_mean (y : ℤ) (h0 : -1000 ≤ y) (h1 : y ≤ 1000) : MeanNear y Solstice.mc2 0 0.0015 := by
  obtain ⟨b1, b2, b3, b4, b5, b6, b7, b8, b9, b10, b11, b12, b13, b14⟩ := trig30
  obtain ⟨r1, r2⟩ := sqrt3_d9
  obtain ⟨a, k, hk⟩ := season_case (c := Solstice.mc2) (cq := [30645297623 / 12500, 9131059351 / 25000, 5169 / 100000, -411 / 100000, -57 / 100000])
    (d := [-1291184937 / 5000000000, -593874631 / 2000000000, 6209239 / 10000000000, -353501 / 5000000000, -98051 / 10000000000]) (q := 0) (ref := 90) (s0 := 1) (c0 := 0) (kL := 1) (kM := 1) (y := y) (B := 12 / 10000)
    (fun Y => by simp only [Solstice.mc2, hornerR, List.foldr, ev]; push_cast; ring) h0 h1 (by push_cast; rw [b9, abs_le]; constructor <;> norm_num at r1 r2 ⊢ <;> linarith) (by push_cast; rw [b10, abs_le]; constructor <;> norm_num at r1 r2 ⊢ <;> linarith) (by decide +kernel)
  have hq : 0 * deg = 0 := by unfold deg; ring
  refine ⟨a, k, ?_⟩
  push_cast at hk
  rw [hq] at hk
  have hd : 0 < deg := by unfold deg; positivity
  linarith

theorem jc0_mean (y : ℤ) (h0 : -1000 ≤ y) (h1 : y ≤ 1000) : MeanNear y Solstice.jc0 (π / 2) 0.0075 := by
  obtain ⟨b1, b2, b3, b4, b5, b6, b7, b8, b9, b10, b11, b12, b13, b14⟩ := trig30
  obtain ⟨r1, r2⟩ := sqrt3_d9
  obtain ⟨a, k, hk⟩ := season_case (c := Solstice.jc0) (cq := [172123325401 / 100000, 18262086281 / 50000, -327 / 6250, 907 / 100000, 1 / 4000])
    (d := [-174422381 / 1250000000, -614037147 / 2000000000, -5841261 / 5000000000, 78011 / 500000000, 8601 / 2000000000]) (q := 90) (ref := 210) (s0 := -1 / 2) (c0 := -4330127019 / 5000000000) (kL := -1999) (kM := -1999) (y := y) (B := 71 / 10000)
    (fun Y => by simp only [Solstice.jc0, hornerR, List.foldr, ev]; push_cast; ring) h0 h1 (by push_cast; rw [b5, abs_le]; constructor <;> norm_num at r1 r2 ⊢ <;> linarith) (by push_cast; rw [b6, abs_le]; constructor <;> norm_num at r1 r2 ⊢ <;> linarith) (by decide +kernel)
  have hq : 90 * deg = (π / 2) := by unfold deg; ring
  refine ⟨a, k, ?_⟩
  push_cast at hk
  rw [hq] at hk
  have hd : 0 < deg := by unfold deg; positivity
  linarith

theorem jc2_mean (y : ℤ) (h0 : -1000 ≤ y) (h1 : y ≤ 1000) : MeanNear y Solstice.jc2 (π / 2) 0.0015 := by
  obtain ⟨b1, b2, b3, b4, b5, b6, b7, b8, b9, b10, b11, b12, b13, b14⟩ := trig30
  obtain ⟨r1, r2⟩ := sqrt3_d9
  obtain ⟨a, k, hk⟩ := season_case (c := Solstice.jc2) (cq := [245171656767 / 100000, 36524162603 / 100000, 13 / 4000, 111 / 12500, -3 / 10000])
    (d := [-2334159031 / 10000000000, -3098046973 / 10000000000, -265423 / 1250000000, 305507 / 2000000000, -25803 / 5000000000]) (q := 90) (ref := 180) (s0 := 0) (c0 := -1) (kL := 1) (kM := 1) (y := y) (B := 12 / 10000)
    (fun Y => by simp only [Solstice.jc2, hornerR, List.foldr, ev]; push_cast; ring) h0 h1 (by push_cast; rw [b11, abs_le]; constructor <;> norm_num at r1 r2 ⊢ <;> linarith) (by push_cast; rw [b12, abs_le]; constructor <;> norm_num at r1 r2 ⊢ <;> linarith) (by decide +kernel)
  have hq : 90 * deg = (π / 2) := by unfold deg; ring
  refine ⟨a, k, ?_⟩
  push_cast at hk
  rw [hq] at hk
  have hd : 0 < deg := by unfold deg; positivity
  linarith

theorem sc0_mean (y : ℤ) (h0 : -1000 ≤ y) (h1 : y ≤ 1000) : MeanNear y Solstice.sc0 π 0.0075 := by
  obtain ⟨b1, b2, b3, b4, b5, b6, b7, b8, b9, b10, b11, b12, b13, b14⟩ := trig30
  obtain ⟨r1, r2⟩ := sqrt3_d9
  obtain ⟨a, k, hk⟩ := season_case (c := Solstice.sc0) (cq := [34426514091 / 20000, 18262124779 / 50000, -11677 / 100000, -297 / 100000, 37 / 50000])
    (d := [-600012711 / 5000000000, -1468869391 / 5000000000, -4553841 / 2000000000, -510897 / 10000000000, 25459 / 2000000000]) (q := 180) (ref := 300) (s0 := -4330127019 / 5000000000) (c0 := 1 / 2) (kL := -1999) (kM := -1999) (y := y) (B := 71 / 10000)
    (fun Y => by simp only [Solstice.sc0, hornerR, List.foldr, ev]; push_cast; ring) h0 h1 (by push_cast; rw [b7, abs_le]; constructor <;> norm_num at r1 r2 ⊢ <;> linarith) (by push_cast; rw [b8, abs_le]; constructor <;> norm_num at r1 r2 ⊢ <;> linarith) (by decide +kernel)
  have hq : 180 * deg = π := by unfold deg; ring
  refine ⟨a, k, ?_⟩
  push_cast at hk
  rw [hq] at hk
  have hd : 0 < deg := by unfold deg; positivity
  linarith

theorem sc2_mean (y : ℤ) (h0 : -1000 ≤ y) (h1 : y ≤ 1000) : MeanNear y Solstice.sc2 π 0.0015 := by
  obtain ⟨b1, b2, b3, b4, b5, b6, b7, b8, b9, b10, b11, b12, b13, b14⟩ := trig30
  obtain ⟨r1, r2⟩ := sqrt3_d9
  obtain ⟨a, k, hk⟩ := season_case (c := Solstice.sc2) (cq := [49036204343 / 20000, 36524201767 / 100000, -463 / 4000, 337 / 100000, 39 / 50000])
    (d := [-1932566821 / 10000000000, -3030678553 / 10000000000, -11296867 / 5000000000, 144927 / 2500000000, 5367 / 400000000]) (q := 180) (ref := 270) (s0 := -1) (c0 := 0) (kL := 1) (kM := 1) (y := y) (B := 12 / 10000)
    (fun Y => by simp only [Solstice.sc2, hornerR, List.foldr, ev]; push_cast; ring) h0 h1 (by push_cast; rw [b13, abs_le]; constructor <;> norm_num at r1 r2 ⊢ <;> linarith) (by push_cast; rw [b14, abs_le]; constructor <;> norm_num at r1 r2 ⊢ <;> linarith) (by decide +kernel)
  have hq : 180 * deg = π := by unfold deg; ring
  refine ⟨a, k, ?_⟩
  push_cast at hk
  rw [hq] at hk
  have hd : 0 < deg := by unfold deg; positivity
  linarith

theorem dc0_mean (y : ℤ) (h0 : -1000 ≤ y) (h1 : y ≤ 1000) : MeanNear y Solstice.dc0 (π * 3 / 2) 0.0075 := by
  obtain ⟨b1, b2, b3, b4, b5, b6, b7, b8, b9, b10, b11, b12, b13, b14⟩ := trig30
  obtain ⟨r1, r2⟩ := sqrt3_d9
  obtain ⟨a, k, hk⟩ := season_case (c := Solstice.dc0) (cq := [172141439987 / 100000, 36524288257 / 100000, -769 / 100000, -933 / 100000, -3 / 50000])
    (d := [-825321863 / 5000000000, -287117017 / 1000000000, -2002649 / 5000000000, -100309 / 625000000, -10321 / 10000000000]) (q := 270) (ref := 30) (s0 := 1 / 2) (c0 := 4330127019 / 5000000000) (kL := -1999) (kM := -1998) (y := y) (B := 71 / 10000)
    (fun Y => by simp only [Solstice.dc0, hornerR, List.foldr, ev]; push_cast; ring) h0 h1 (by push_cast; rw [b1, abs_le]; constructor <;> norm_num at r1 r2 ⊢ <;> linarith) (by push_cast; rw [b2, abs_le]; constructor <;> norm_num at r1 r2 ⊢ <;> linarith) (by decide +kernel)
  have hq : 270 * deg = (π * 3 / 2) := by unfold deg; ring
  refine ⟨a, k, ?_⟩
  push_cast at hk
  rw [hq] at hk
  have hd : 0 < deg := by unfold deg; positivity
  linarith

theorem dc2_mean (y : ℤ) (h0 : -1000 ≤ y) (h1 : y ≤ 1000) : MeanNear y Solstice.dc2 (π * 3 / 2) 0.0015 := by
  obtain ⟨b1, b2, b3, b4, b5, b6, b7, b8, b9, b10, b11, b12, b13, b14⟩ := trig30
  obtain ⟨r1, r2⟩ := sqrt3_d9
  obtain ⟨a, k, hk⟩ := season_case (c := Solstice.dc2) (cq := [7662187686 / 3125, 36524274049 / 100000, -6223 / 100000, -823 / 100000, 1 / 3125])
    (d := [-1092936267 / 5000000000, -2906340593 / 10000000000, -53549 / 40000000, -1415721 / 10000000000, 27523 / 5000000000]) (q := 270) (ref := 0) (s0 := 0) (c0 := 1) (kL := 1) (kM := 2) (y := y) (B := 12 / 10000)
    (fun Y => by simp only [Solstice.dc2, hornerR, List.foldr, ev]; push_cast; ring) h0 h1 (by push_cast; norm_num) (by push_cast; norm_num) (by decide +kernel)
  have hq : 270 * deg = (π * 3 / 2) := by unfold deg; ring
  refine ⟨a, k, ?_⟩
  push_cast at hk
  rw [hq] at hk
  have hd : 0 < deg := by unfold deg; positivity
  linarith

/-- **C158.**  From 1000 to 3000, `March`, `June`, `September` and `December` return instants at which the apparent longitude of the Sun by `solar.ApparentLongitude` is 0°, 90°,
180° and 270° within 0.018° (26 minutes of time). -/
theorem C158_seasons (y : ℤ) (h0 : 1000 ≤ y) (h1 : y ≤ 3000) :
    (∃ k : ℤ, |Solar.ApparentLongitude (J2000Century (Solstice.March y)) - (k : ℝ) * (2 * π)| ≤ 0.018 * deg) ∧
    (∃ k : ℤ, |Solar.ApparentLongitude (J2000Century (Solstice.June y)) - (π / 2 + (k : ℝ) * (2 * π))| ≤ 0.018 * deg) ∧
    (∃ k : ℤ, |Solar.ApparentLongitude (J2000Century (Solstice.September y)) - (π + (k : ℝ) * (2 * π))| ≤ 0.018 * deg) ∧
    (∃ k : ℤ, |Solar.ApparentLongitude (J2000Century (Solstice.December y)) - (π * 3 / 2 + (k : ℝ) * (2 * π))| ≤ 0.018 * deg) := by
  unfold Solstice.March Solstice.June Solstice.September Solstice.December
  rw [if_neg (by omega), if_neg (by omega), if_neg (by omega), if_neg (by omega)]
  have hd : 0 < deg := by unfold deg; positivity
  have w : ∀ {c : List ℝ} {q : ℝ}, MeanNear (y - 2000) c q 0.0015 → ∃ k : ℤ,
      |Solar.ApparentLongitude (J2000Century (Solstice.eq (y - 2000) c)) - (q + (k : ℝ) * (2 * π))| ≤ 0.018 * deg := by
    intro c q h
    obtain ⟨h1, k, h2⟩ := h
    obtain ⟨k', h3⟩ := season_apparent h1 h2
    exact ⟨k', by linarith⟩
  have m := w (mc2_mean (y - 2000) (by omega) (by omega))
  simp only [zero_add] at m
  exact ⟨m, w (jc2_mean (y - 2000) (by omega) (by omega)), w (sc2_mean (y - 2000) (by omega) (by omega)), w (dc2_mean (y - 2000) (by omega) (by omega))⟩

/-- The same from −1000 to 999 within 0.024°. -/
theorem C158_seasons_early (y : ℤ) (h0 : -1000 ≤ y) (h1 : y < 1000) :
    (∃ k : ℤ, |Solar.ApparentLongitude (J2000Century (Solstice.March y)) - (k : ℝ) * (2 * π)| ≤ 0.024 * deg) ∧
    (∃ k : ℤ, |Solar.ApparentLongitude (J2000Century (Solstice.June y)) - (π / 2 + (k : ℝ) * (2 * π))| ≤ 0.024 * deg) ∧
    (∃ k : ℤ, |Solar.ApparentLongitude (J2000Century (Solstice.September y)) - (π + (k : ℝ) * (2 * π))| ≤ 0.024 * deg) ∧
    (∃ k : ℤ, |Solar.ApparentLongitude (J2000Century (Solstice.December y)) - (π * 3 / 2 + (k : ℝ) * (2 * π))| ≤ 0.024 * deg) := by
  unfold Solstice.March Solstice.June Solstice.September Solstice.December
  rw [if_pos (by omega), if_pos (by omega), if_pos (by omega), if_pos (by omega)]
  have hd : 0 < deg := by unfold deg; positivity
  have w : ∀ {c : List ℝ} {q : ℝ}, MeanNear y c q 0.0075 → ∃ k : ℤ,
      |Solar.ApparentLongitude (J2000Century (Solstice.eq y c)) - (q + (k : ℝ) * (2 * π))| ≤ 0.024 * deg := by
    intro c q h
    obtain ⟨h1, k, h2⟩ := h
    obtain ⟨k', h3⟩ := season_apparent h1 h2
    exact ⟨k', by linarith⟩
  have m := w (mc0_mean y (by omega) (by omega))
  simp only [zero_add] at m
  exact ⟨m, w (jc0_mean y (by omega) (by omega)), w (sc0_mean y (by omega) (by omega)), w (dc0_mean y (by omega) (by omega))⟩

/-- The September equinox of 2020 and the June solstice of 500 are among them. -/
example : (∃ k : ℤ, |Solar.ApparentLongitude (J2000Century (Solstice.September 2020)) - (π + (k : ℝ) * (2 * π))| ≤ 0.018 * deg) ∧
    (∃ k : ℤ, |Solar.ApparentLongitude (J2000Century (Solstice.June 500)) - (π / 2 + (k : ℝ) * (2 * π))| ≤ 0.024 * deg) :=
  ⟨(C158_seasons 2020 (by norm_num) (by norm_num)).2.2.1, (C158_seasons_early 500 (by norm_num) (by norm_num)).2.1⟩

end Verif.Props
