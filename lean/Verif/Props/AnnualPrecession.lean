import Verif.Props.PrecessRoutes
/-
C180: the annual precession and the rate of the exact precession.
-/
namespace Verif.Props

open Real Verif.Spec Verif.Go Verif.Model Verif.Model.Precess Verif.Lemmas

/-- V is the velocity, per year, at the epoch e of the direction of a star as precession carries it from e on. -/
def RateOfPrecession (e : ℝ) (q : Equatorial ℝ) (V : V3) : Prop :=
  ∀ i, HasDerivAt (fun e' => dir (precessVal (NewPrecessor e e') q).RA (precessVal (NewPrecessor e e') q).Dec i) (V i) e

/-- The velocity of a direction whose coordinates change by a and d. -/
noncomputable def velocity (q : Equatorial ℝ) (a d : ℝ) : V3 :=
  (a * cos q.Dec) • !₂[-sin q.RA, cos q.RA, 0] + d • !₂[-(sin q.Dec * cos q.RA), -(sin q.Dec * sin q.RA), cos q.Dec]

/-- Cubics which vanish at e have their first coefficient as slope. -/
theorem slope_cubic (e a b c s : ℝ) : HasDerivAt (fun e' : ℝ => (a * ((e' - e) / 100) + b * ((e' - e) / 100) ^ 2 + c * ((e' - e) / 100) ^ 3) * s)
    (a / 100 * s) e := by
  have h : HasDerivAt (fun e' : ℝ => (e' - e) / 100) (1 / 100) e := ((hasDerivAt_id e).sub_const e).div_const 100
  have := (((h.const_mul a).add ((h.pow 2).const_mul b)).add ((h.pow 3).const_mul c)).mul_const s
  refine this.congr_deriv ?_
  rw [sub_self]; ring

theorem rot_rate {f g h : ℝ → ℝ} {f' g' h' e : ℝ} (hf : HasDerivAt f f' e) (hg : HasDerivAt g g' e) (hh : HasDerivAt h h' e) (f0 : f e = 0) (g0 : g e = 0)
    (h0 : h e = 0) (x y z : ℝ) (i : Fin 3) :
    HasDerivAt (fun t => (rotZ (g t) (rotY (-h t) (rotZ (f t) !₂[x, y, z]))) i) ((!₂[-(f' + g') * y - h' * z, (f' + g') * x, h' * x] : V3) i) e := by
  have a1 := hf.sin
  have a2 := hf.cos
  have b1 := hg.sin
  have b2 := hg.cos
  have c1 := hh.neg.sin
  have c2 := hh.neg.cos
  simp only [f0, g0, h0, cos_zero, sin_zero, neg_zero, Pi.neg_apply] at a1 a2 b1 b2 c1 c2
  simp only [rotZ_vec, rotY_vec]
  fin_cases i
  · have := (b2.mul ((c2.mul ((a2.mul_const x).sub (a1.mul_const y))).add (c1.mul_const z))).sub (b1.mul ((a1.mul_const x).add (a2.mul_const y)))
    refine (this.congr_deriv ?_).congr_of_eventuallyEq (Filter.Eventually.of_forall fun t => ?_)
    · simp [f0, g0, h0]; ring
    · simp
  · have := (b1.mul ((c2.mul ((a2.mul_const x).sub (a1.mul_const y))).add (c1.mul_const z))).add (b2.mul ((a1.mul_const x).add (a2.mul_const y)))
    refine (this.congr_deriv ?_).congr_of_eventuallyEq (Filter.Eventually.of_forall fun t => ?_)
    · simp [f0, g0, h0]; ring
    · simp
  · have := (c2.mul_const z).sub (c1.mul ((a2.mul_const x).sub (a1.mul_const y)))
    refine (this.congr_deriv ?_).congr_of_eventuallyEq (Filter.Eventually.of_forall fun t => ?_)
    · simp [f0, h0]
    · simp; try ring

/-- The velocity of the general precession. -/
noncomputable def precRate (e : ℝ) (q : Equatorial ℝ) : V3 :=
  let T := (e - 2000) / 100
  let m := 2 * (2306.2181 + 1.39656 * T - 0.000139 * T ^ 2) / 100 * (π / 180 / 3600)
  let n := (2004.3109 - 0.85330 * T - 0.000217 * T ^ 2) / 100 * (π / 180 / 3600)
  !₂[-m * (cos q.Dec * sin q.RA) - n * sin q.Dec, m * (cos q.Dec * cos q.RA), n * (cos q.Dec * cos q.RA)]

theorem rate_precRate (e : ℝ) (q : Equatorial ℝ) : RateOfPrecession e q (precRate e q) := by
  have hζ := slope_cubic e (2306.2181 + 1.39656 * ((e - 2000) / 100) - 0.000139 * ((e - 2000) / 100) ^ 2) (0.30188 - 0.000344 * ((e - 2000) / 100)) 0.017998
    (π / 180 / 3600)
  have hz := slope_cubic e (2306.2181 + 1.39656 * ((e - 2000) / 100) - 0.000139 * ((e - 2000) / 100) ^ 2) (1.09468 + 0.000066 * ((e - 2000) / 100)) 0.018203
    (π / 180 / 3600)
  have hθ := slope_cubic e (2004.3109 - 0.85330 * ((e - 2000) / 100) - 0.000217 * ((e - 2000) / 100) ^ 2) (-(0.42665 + 0.000217 * ((e - 2000) / 100)))
    (-0.041833) (π / 180 / 3600)
  have key : ∀ e', dir (precessVal (NewPrecessor e e') q).RA (precessVal (NewPrecessor e e') q).Dec =
      rotZ (precAngles e e').2.1 (rotY (-(precAngles e e').2.2) (rotZ (precAngles e e').1 (dir q.RA q.Dec))) := fun e' => C51_rotation e e' q.RA q.Dec
  have fζ : (fun e' => (precAngles e e').1) = fun e' : ℝ => ((2306.2181 + 1.39656 * ((e - 2000) / 100) - 0.000139 * ((e - 2000) / 100) ^ 2) * ((e' - e) / 100) +
      (0.30188 - 0.000344 * ((e - 2000) / 100)) * ((e' - e) / 100) ^ 2 + 0.017998 * ((e' - e) / 100) ^ 3) * (π / 180 / 3600) := by
    funext e'; rw [C51_angles]
  have fz : (fun e' => (precAngles e e').2.1) = fun e' : ℝ => ((2306.2181 + 1.39656 * ((e - 2000) / 100) - 0.000139 * ((e - 2000) / 100) ^ 2) * ((e' - e) / 100) +
      (1.09468 + 0.000066 * ((e - 2000) / 100)) * ((e' - e) / 100) ^ 2 + 0.018203 * ((e' - e) / 100) ^ 3) * (π / 180 / 3600) := by
    funext e'; rw [C51_angles]
  have fθ : (fun e' => (precAngles e e').2.2) = fun e' : ℝ => ((2004.3109 - 0.85330 * ((e - 2000) / 100) - 0.000217 * ((e - 2000) / 100) ^ 2) * ((e' - e) / 100) +
      (-(0.42665 + 0.000217 * ((e - 2000) / 100))) * ((e' - e) / 100) ^ 2 + -0.041833 * ((e' - e) / 100) ^ 3) * (π / 180 / 3600) := by
    funext e'; rw [C51_angles]; ring
  rw [← fζ] at hζ
  rw [← fz] at hz
  rw [← fθ] at hθ
  have z1 : (precAngles e e).1 = 0 := by rw [C51_angles]; simp
  have z2 : (precAngles e e).2.1 = 0 := by rw [C51_angles]; simp
  have z3 : (precAngles e e).2.2 = 0 := by rw [C51_angles]; simp
  clear fζ fz fθ
  unfold RateOfPrecession
  simp only [key]
  have := rot_rate hζ hz hθ z1 z2 z3 (cos q.Dec * cos q.RA) (cos q.Dec * sin q.RA) (sin q.Dec)
  intro i
  refine (this i).congr_deriv ?_
  unfold precRate
  have e3 : ∀ {a b c a' b' c' : ℝ}, a = a' → b = b' → c = c' → (!₂[a, b, c] : V3) i = (!₂[a', b', c'] : V3) i := by
    intro a b c a' b' c' h1 h2 h3; rw [h1, h2, h3]
  apply e3 <;> ring

theorem rate_unique {e : ℝ} {q : Equatorial ℝ} {V W : V3} (h : RateOfPrecession e q V) (h' : RateOfPrecession e q W) : V = W := by
  ext i; exact (h i).unique (h' i)

theorem velocity_frame (m n α δ : ℝ) : (!₂[-m * (cos δ * sin α) - n * sin δ, m * (cos δ * cos α), n * (cos δ * cos α)] : V3) =
    (m * cos δ + n * (sin α * sin δ)) • !₂[-sin α, cos α, 0] + (n * cos α) • !₂[-(sin δ * cos α), -(sin δ * sin α), cos δ] := by
  have s1 := sin_sq_add_cos_sq α
  ext i; fin_cases i
  · simp; linear_combination (n * sin δ) * s1
  · simp; ring
  · simp; ring

theorem norm_frame (a b α δ : ℝ) : ‖a • (!₂[-sin α, cos α, 0] : V3) + b • !₂[-(sin δ * cos α), -(sin δ * sin α), cos δ]‖ ^ 2 = a ^ 2 + b ^ 2 := by
  have s1 := sin_sq_add_cos_sq α
  have s2 := sin_sq_add_cos_sq δ
  have e : a • (!₂[-sin α, cos α, 0] : V3) + b • !₂[-(sin δ * cos α), -(sin δ * sin α), cos δ] =
      !₂[-a * sin α - b * (sin δ * cos α), a * cos α - b * (sin δ * sin α), b * cos δ] := by
    ext i; fin_cases i <;> simp <;> ring
  rw [e, ← real_inner_self_eq_norm_sq, inner_vec]
  linear_combination (a ^ 2 + b ^ 2 * sin δ ^ 2) * s1 + b ^ 2 * s2

/-- The difference of the rate and of the returned value. -/
theorem rate_diff (e e1 e2 : ℝ) (q : Equatorial ℝ) (hq : cos q.Dec ≠ 0) :
    let T := (e - 2000) / 100
    let U := (e2 - e1) / 100
    let m := 2 * (2306.2181 + 1.39656 * T - 0.000139 * T ^ 2) / 100 - 15 * (3.07496 + 0.00186 * U)
    let n := (2004.3109 - 0.85330 * T - 0.000217 * T ^ 2) / 100 - 15 * (1.33621 - 0.00057 * U)
    let k := (2004.3109 - 0.85330 * T - 0.000217 * T ^ 2) / 100 - (20.0431 - 0.0085 * U)
    ‖precRate e q - velocity q (ApproxAnnualPrecession q e1 e2).1 (ApproxAnnualPrecession q e1 e2).2‖ ^ 2 =
      ((m * cos q.Dec + n * (sin q.RA * sin q.Dec)) ^ 2 + (k * cos q.RA) ^ 2) * (π / 180 / 3600) ^ 2 := by
  intro T U m n k
  have ht : tan q.Dec * cos q.Dec = sin q.Dec := tan_mul_cos hq
  have hv : precRate e q - velocity q (ApproxAnnualPrecession q e1 e2).1 (ApproxAnnualPrecession q e1 e2).2 =
      ((m * cos q.Dec + n * (sin q.RA * sin q.Dec)) * (π / 180 / 3600)) • !₂[-sin q.RA, cos q.RA, 0] +
        (k * cos q.RA * (π / 180 / 3600)) • !₂[-(sin q.Dec * cos q.RA), -(sin q.Dec * sin q.RA), cos q.Dec] := by
    unfold precRate velocity ApproxAnnualPrecession mn
    dsimp only
    rw [velocity_frame]
    simp only [lit_real, sin_real, cos_real, tan_real, Precess.sec, Precess.deg, pi_real]
    rw [add_sub_add_comm, ← sub_smul, ← sub_smul]
    congr 2
    · rw [← ht]; push_cast; simp only [m, n, T, U]; ring
    · push_cast; simp only [k, T, U]; ring
  rw [hv, norm_frame]; ring

/-- **C180.**  From 2000, the annual precession returned is the rate of precession at the other epoch, within 0.0002″, for every star off the poles and
epochs 1800–2200. -/
theorem C180_rate_partial (e : ℝ) (he : |e - 2000| ≤ 200) (q : Equatorial ℝ) (hq : |q.Dec| < π / 2) :
    ∃ V, RateOfPrecession e q V ∧
      ‖V - velocity q (ApproxAnnualPrecession q 2000 e).1 (ApproxAnnualPrecession q 2000 e).2‖ ≤ 0.0002 * (π / 180 / 3600) := by
  refine ⟨precRate e q, rate_precRate e q, ?_⟩
  have h := rate_diff e 2000 e q (cos_pos_of_mem_Ioo (abs_lt.1 hq)).ne'
  dsimp only at h
  rw [abs_le] at he
  obtain ⟨T, hT⟩ : ∃ T, T = (e - 2000) / 100 := ⟨_, rfl⟩
  have hT1 : -2 ≤ T := by rw [hT]; linarith [he.1]
  have hT2 : T ≤ 2 := by rw [hT]; linarith [he.2]
  rw [← hT] at h
  have hs : 0 ≤ π / 180 / 3600 := by positivity
  generalize π / 180 / 3600 = s at *
  refine abs_le_of_sq_le_sq' ?_ (by positivity) |>.2
  rw [h, mul_pow 0.0002 s]
  refine mul_le_mul_of_nonneg_right ?_ (sq_nonneg s)
  have c1 := cos_sq_le_one q.RA
  have c2 := sin_sq_le_one q.RA
  have c3 := sin_sq_add_cos_sq q.Dec
  clear h hs he hT
  have hm : |2 * (2306.2181 + 1.39656 * T - 0.000139 * T ^ 2) / 100 - 15 * (3.07496 + 0.00186 * T)| ≤ 0.00012 := by
    rw [abs_le]; constructor <;> norm_num <;> nlinarith
  have hn : |(2004.3109 - 0.85330 * T - 0.000217 * T ^ 2) / 100 - 15 * (1.33621 - 0.00057 * T)| ≤ 0.0001 := by
    rw [abs_le]; constructor <;> norm_num <;> nlinarith
  have hk : |(2004.3109 - 0.85330 * T - 0.000217 * T ^ 2) / 100 - (20.0431 - 0.0085 * T)| ≤ 0.0001 := by
    rw [abs_le]; constructor <;> norm_num <;> nlinarith
  generalize 2 * (2306.2181 + 1.39656 * T - 0.000139 * T ^ 2) / 100 - 15 * (3.07496 + 0.00186 * T) = m at *
  generalize (2004.3109 - 0.85330 * T - 0.000217 * T ^ 2) / 100 - 15 * (1.33621 - 0.00057 * T) = n at *
  generalize (2004.3109 - 0.85330 * T - 0.000217 * T ^ 2) / 100 - (20.0431 - 0.0085 * T) = k at *
  have hm2 : m ^ 2 ≤ 0.00012 ^ 2 := sq_le_sq' (abs_le.1 hm).1 (abs_le.1 hm).2
  have hn2 : n ^ 2 ≤ 0.0001 ^ 2 := sq_le_sq' (abs_le.1 hn).1 (abs_le.1 hn).2
  have hk2 : k ^ 2 ≤ 0.0001 ^ 2 := sq_le_sq' (abs_le.1 hk).1 (abs_le.1 hk).2
  have e1 : (m * cos q.Dec + n * (sin q.RA * sin q.Dec)) ^ 2 ≤ m ^ 2 + n ^ 2 * sin q.RA ^ 2 := by
    have := sq_nonneg (m * sin q.Dec - n * sin q.RA * cos q.Dec)
    nlinarith
  have e2 : n ^ 2 * sin q.RA ^ 2 ≤ n ^ 2 := mul_le_of_le_one_right (sq_nonneg n) c2
  have e3 : (k * cos q.RA) ^ 2 ≤ k ^ 2 := by rw [mul_pow]; exact mul_le_of_le_one_right (sq_nonneg k) c1
  norm_num at *
  linarith

/-- **C180.**  The result does not depend on where in time the epochs are: for epochs both 1900 it is off the rate at 1900 by more than 0.02″ a year. -/
theorem C180_rate_violation :
    ∃ q : Equatorial ℝ, |q.Dec| < π / 2 ∧ ∀ e, (1900 : ℝ) ≤ e → e ≤ 1900 → ∀ V, RateOfPrecession e q V →
      0.02 * (π / 180 / 3600) < ‖V - velocity q (ApproxAnnualPrecession q 1900 1900).1 (ApproxAnnualPrecession q 1900 1900).2‖ := by
  refine ⟨⟨0, 0⟩, by rw [abs_zero]; positivity, fun e h1 h2 V hV => ?_⟩
  obtain rfl : e = 1900 := le_antisymm h2 h1
  rw [rate_unique hV (rate_precRate _ _)]
  have h := rate_diff 1900 1900 1900 ⟨0, 0⟩ (by norm_num)
  dsimp only at h
  rw [cos_zero, sin_zero] at h
  refine lt_of_pow_lt_pow_left₀ 2 (norm_nonneg _) ?_
  rw [h, mul_pow 0.02]
  have : 0 < (π / 180 / 3600) ^ 2 := by positivity
  refine mul_lt_mul_of_pos_right ?_ this
  norm_num

/-- A star of declination 60° in 2100. -/
example : |(2100 : ℝ) - 2000| ≤ 200 ∧ |(⟨1, π / 3⟩ : Equatorial ℝ).Dec| < π / 2 := by
  refine ⟨by norm_num [abs_le], ?_⟩
  dsimp only
  rw [abs_of_pos (by positivity)]; linarith [pi_pos]

end Verif.Props
