import Verif.Model.Rise
import Verif.Lemmas.Sphere
import Mathlib.Analysis.Real.Pi.Bounds
/-
C60 – C63: rising, transit and setting; sidereal time.
-/
namespace Verif.Props

open Real Verif.Go Verif.Model

/-- Altitude of a body with declination δ and local hour angle H seen from latitude φ. -/
noncomputable def altitude (φ δ H : ℝ) : ℝ := arcsin (sin φ * sin δ + cos φ * cos δ * cos H)

/-- Seconds as an angle, 86400 s to the turn. -/
noncomputable def turnRad (t : ℝ) : ℝ := t / 86400 * (2 * π)

theorem timeMod1_eq (t : ℝ) : 0 ≤ timeMod1 t ∧ timeMod1 t < 86400 ∧ ∃ k : ℤ, t = timeMod1 t + k * 86400 :=
  pmod_eq t (by norm_num)

theorem timeMod1_congr {a b : ℝ} (k : ℤ) (h : a = b + k * 86400) : timeMod1 a = timeMod1 b := by
  obtain ⟨h0, h1, j, hj⟩ := timeMod1_eq b
  refine pmod_unique (by norm_num) h0 h1 (j + k) ?_
  push_cast
  linarith

/-- sin h0 attained on the parallel of declination δ. -/
theorem cH0_attained {φ δ h0 : ℝ} (hφ : |φ| < π / 2) (hδ : |δ| < π / 2) (hh : |h0| ≤ π / 2) (H : ℝ) :
    altitude φ δ H = h0 ↔ cos H = (sin h0 - sin φ * sin δ) / (cos φ * cos δ) := by
  have c1 : 0 < cos φ := cos_pos_of_mem_Ioo ⟨(abs_lt.1 hφ).1, (abs_lt.1 hφ).2⟩
  have c2 : 0 < cos δ := cos_pos_of_mem_Ioo ⟨(abs_lt.1 hδ).1, (abs_lt.1 hδ).2⟩
  rw [eq_div_iff (mul_pos c1 c2).ne']
  have b : sin φ * sin δ + cos φ * cos δ * cos H ∈ Set.Icc (-1 : ℝ) 1 := by
    have e1 := sin_sq_add_cos_sq φ
    have e2 := sin_sq_add_cos_sq δ
    have a1 := neg_one_le_cos H
    have a2 := cos_le_one H
    have p := mul_pos c1 c2
    constructor <;> nlinarith [sq_nonneg (sin φ - sin δ), sq_nonneg (cos φ - cos δ), sq_nonneg (sin φ + sin δ),
      sq_nonneg (cos φ + cos δ), mul_nonneg p.le (sub_nonneg.2 a2), mul_nonneg p.le (by linarith : 0 ≤ 1 + cos H)]
  constructor
  · intro h
    have := sin_arcsin b.1 b.2
    unfold altitude at h
    rw [h] at this
    linarith
  · intro h
    unfold altitude
    rw [show sin φ * sin δ + cos φ * cos δ * cos H = sin h0 by linarith]
    exact arcsin_sin (abs_le.1 hh).1 (abs_le.1 hh).2

/-- C60: `ApproxTimes` reports an error exactly when no hour angle gives the body the standard altitude. -/
theorem C60_error_iff (p : Rise.Coord) (h0 Th0 α δ : ℝ) (hφ : |p.Lat| < π / 2) (hδ : |δ| < π / 2) (hh : |h0| ≤ π / 2) :
    (∃ e, Rise.ApproxTimes p h0 Th0 α δ = .error e) ↔ ∀ H, altitude p.Lat δ H ≠ h0 := by
  unfold Rise.ApproxTimes
  dsimp only
  simp only [ne_eq, cH0_attained hφ hδ hh]
  set c := (sin h0 - sin p.Lat * sin δ) / (cos p.Lat * cos δ)
  by_cases hc : c < -1 ∨ c > 1
  · rw [if_pos hc]
    refine ⟨fun _ H hH => ?_, fun _ => ⟨_, rfl⟩⟩
    have a1 := neg_one_le_cos H
    have a2 := cos_le_one H
    rcases hc with hc | hc <;> linarith
  · rw [if_neg hc]
    push Not at hc
    refine ⟨fun ⟨e, he⟩ => (by cases he), fun h => absurd (cos_arccos hc.1 hc.2) (h (arccos c))⟩

/-- C60: without an error the three times lie in the day; with the sidereal time advancing from `Th0` at the rate of UT, the body
has the standard altitude at the rise and set times, is east of the meridian at the former and west at the latter, and its hour
angle at the transit time is zero, so its altitude is greatest. -/
theorem C60_times (p : Rise.Coord) (h0 Th0 α δ : ℝ) (hφ : |p.Lat| < π / 2) (hδ : |δ| < π / 2) (hh : |h0| ≤ π / 2)
    (t : Rise.Three) (ht : Rise.ApproxTimes p h0 Th0 α δ = .ok t) :
    (t.rise ∈ Set.Ico 0 86400 ∧ t.transit ∈ Set.Ico 0 86400 ∧ t.set ∈ Set.Ico 0 86400) ∧
    altitude p.Lat δ (turnRad (Th0 + t.rise) - p.Lon - α) = h0 ∧
    altitude p.Lat δ (turnRad (Th0 + t.set) - p.Lon - α) = h0 ∧
    sin (turnRad (Th0 + t.rise) - p.Lon - α) ≤ 0 ∧ 0 ≤ sin (turnRad (Th0 + t.set) - p.Lon - α) ∧
    (∃ k : ℤ, turnRad (Th0 + t.transit) - p.Lon - α = k * (2 * π)) ∧
    ∀ H, altitude p.Lat δ H ≤ altitude p.Lat δ (turnRad (Th0 + t.transit) - p.Lon - α) := by
  have c1 : 0 < cos p.Lat := cos_pos_of_mem_Ioo ⟨(abs_lt.1 hφ).1, (abs_lt.1 hφ).2⟩
  have c2 : 0 < cos δ := cos_pos_of_mem_Ioo ⟨(abs_lt.1 hδ).1, (abs_lt.1 hδ).2⟩
  unfold Rise.ApproxTimes at ht
  dsimp only at ht
  rw [cH0_attained hφ hδ hh, cH0_attained hφ hδ hh]
  set c := (sin h0 - sin p.Lat * sin δ) / (cos p.Lat * cos δ)
  by_cases hc : c < -1 ∨ c > 1
  · rw [if_pos hc] at ht; cases ht
  rw [if_neg hc] at ht
  push Not at hc
  cases ht
  dsimp only
  obtain ⟨r0, r1, kr, hr⟩ := timeMod1_eq (timeFromRad (α + p.Lon) - Th0 - timeFromRad (arccos c))
  obtain ⟨t0, t1, kt, htt⟩ := timeMod1_eq (timeFromRad (α + p.Lon) - Th0)
  obtain ⟨s0, s1, ks, hs⟩ := timeMod1_eq (timeFromRad (α + p.Lon) - Th0 + timeFromRad (arccos c))
  generalize timeMod1 (timeFromRad (α + p.Lon) - Th0 - timeFromRad (arccos c)) = R at *
  generalize timeMod1 (timeFromRad (α + p.Lon) - Th0) = T at *
  generalize timeMod1 (timeFromRad (α + p.Lon) - Th0 + timeFromRad (arccos c)) = S at *
  have hpi := pi_pos
  have eR : turnRad (Th0 + R) - p.Lon - α = -arccos c - kr * (2 * π) := by
    have : Th0 + R = timeFromRad (α + p.Lon) - timeFromRad (arccos c) - kr * 86400 := by linarith
    rw [this]; unfold turnRad timeFromRad; field_simp; ring
  have eS : turnRad (Th0 + S) - p.Lon - α = arccos c - ks * (2 * π) := by
    have : Th0 + S = timeFromRad (α + p.Lon) + timeFromRad (arccos c) - ks * 86400 := by linarith
    rw [this]; unfold turnRad timeFromRad; field_simp; ring
  have eT : turnRad (Th0 + T) - p.Lon - α = ((-kt : ℤ) : ℝ) * (2 * π) := by
    have : Th0 + T = timeFromRad (α + p.Lon) - kt * 86400 := by linarith
    rw [this]; unfold turnRad timeFromRad; push_cast; field_simp; ring
  have sa : 0 ≤ sin (arccos c) := sin_nonneg_of_nonneg_of_le_pi (arccos_nonneg c) (arccos_le_pi c)
  rw [eR, eS, eT, cos_sub_int_mul_two_pi, cos_sub_int_mul_two_pi, cos_neg, cos_arccos hc.1 hc.2, sin_sub_int_mul_two_pi,
    sin_sub_int_mul_two_pi, sin_neg]
  refine ⟨⟨⟨r0, r1⟩, ⟨t0, t1⟩, s0, s1⟩, rfl, rfl, by linarith, sa, ⟨_, rfl⟩, fun H => ?_⟩
  unfold altitude
  rw [cos_int_mul_two_pi]
  exact monotone_arcsin (by nlinarith [mul_nonneg (mul_pos c1 c2).le (sub_nonneg.2 (cos_le_one H))])

/-- A case of `C60_times`: on the equator a body on the celestial equator rises, with altitude zero as the standard. -/
theorem C60_example : ∃ t, Rise.ApproxTimes ⟨0, 0⟩ 0 0 1 0 = .ok t := by
  unfold Rise.ApproxTimes
  simp [not_lt.2 (zero_le_one' ℝ)]

/-- A case of the error: at latitude 1 (57°) a body of declination 1 never has altitude 0. -/
theorem C60_example_circumpolar : ∃ e, Rise.ApproxTimes ⟨1, 0⟩ 0 0 1 1 = .error e := by
  have hp : (1 : ℝ) < π / 2 := by linarith [pi_gt_three]
  have h1 : |(1 : ℝ)| < π / 2 := by rw [abs_one]; exact hp
  rw [C60_error_iff ⟨1, 0⟩ 0 0 1 1 h1 h1 (by rw [abs_zero]; positivity)]
  intro H h
  rw [cH0_attained h1 h1 (by rw [abs_zero]; positivity)] at h
  have c : 0 < cos 1 := cos_pos_of_mem_Ioo ⟨by linarith, hp⟩
  have s : cos 1 < sin 1 := by
    rw [← cos_pi_div_two_sub]
    refine cos_lt_cos_of_nonneg_of_le_pi (by linarith) (by linarith [pi_gt_three]) ?_
    linarith [pi_lt_d2]
  rw [eq_div_iff (by positivity), sin_zero] at h
  nlinarith [neg_one_le_cos H, mul_pos c c]

/-- C61, largest part: without an error the corrected transit time is, up to whole days, the uncorrected one minus the hour angle of
the body at that instant, its right ascension being interpolated to the instant and the sidereal time advancing at the sidereal
rate.  Missing for the full property: the result is not reduced to the day. -/
theorem C61_transit_partial (p : Rise.Coord) (ΔT h0 Th0 α1 α2 α3 δ1 δ2 δ3 : ℝ) (t a : Rise.Three)
    (ha : Rise.ApproxTimes p h0 Th0 α2 δ2 = .ok a)
    (ht : Rise.Times p ΔT h0 Th0 α1 α2 α3 δ1 δ2 δ3 = .ok t) :
    ∃ k : ℤ,
      let n := (a.transit + ΔT) / 86400
      let α := α2 + n / 2 * (α3 - α1 + n * (α3 - 2 * α2 + α1))
      turnRad t.transit = turnRad a.transit - (turnRad (Th0 + a.transit * (360.985647 / 360)) - p.Lon - α) + k * (2 * π) := by
  unfold Rise.Times at ht
  rw [ha] at ht
  unfold Interp.NewLen3 at ht
  dsimp only at ht
  have hne : ¬ (86400 : ℝ) = -86400 := by norm_num
  rw [if_neg hne, if_neg hne] at ht
  cases ht
  dsimp only
  obtain ⟨r0, r1, k, hk⟩ := timeMod1_eq (Th0 + a.transit * (360.985647 / 360))
  generalize timeMod1 (Th0 + a.transit * (360.985647 / 360)) = R at *
  refine ⟨k, ?_⟩
  rw [hk]
  have hpi := pi_pos
  unfold turnRad timeFromRad Interp.Len3.InterpolateX Interp.Len3.InterpolateN Interp.Len3.y1
  simp only [List.getD_cons_succ, List.getD_cons_zero]
  field_simp
  ring

/-- C61: the corrections of the rising and setting times are the Newton steps for the sine of the altitude: the rate at which the sine of
the altitude changes with the hour angle (of the body as interpolated to the uncorrected instant), times the correction as an angle, is the
excess of the standard altitude over the altitude at that instant. -/
theorem C61_rise_set (p : Rise.Coord) (ΔT h0 Th0 α1 α2 α3 δ1 δ2 δ3 : ℝ) (t a : Rise.Three)
    (ha : Rise.ApproxTimes p h0 Th0 α2 δ2 = .ok a)
    (ht : Rise.Times p ΔT h0 Th0 α1 α2 α3 δ1 δ2 δ3 = .ok t) :
    ∀ u v, (u = a.rise ∧ v = t.rise) ∨ (u = a.set ∧ v = t.set) →
      let n := (u + ΔT) / 86400
      let α := α2 + n / 2 * (α3 - α1 + n * (α3 - 2 * α2 + α1))
      let δ := δ2 + n / 2 * (δ3 - δ1 + n * (δ3 - 2 * δ2 + δ1))
      let H := turnRad (Th0 + u * (360.985647 / 360)) - p.Lon - α
      cos δ * cos p.Lat * sin H ≠ 0 →
      ∃ D, HasDerivAt (fun H => sin p.Lat * sin δ + cos p.Lat * cos δ * cos H) D H ∧
        D * turnRad (v - u) = h0 - altitude p.Lat δ H := by
  unfold Rise.Times at ht
  rw [ha] at ht
  unfold Interp.NewLen3 at ht
  dsimp only at ht
  have hne : ¬ (86400 : ℝ) = -86400 := by norm_num
  rw [if_neg hne, if_neg hne] at ht
  cases ht
  intro u v huv n α δ H hH
  refine ⟨cos p.Lat * cos δ * -sin H, ((hasDerivAt_cos H).const_mul _).const_add _, ?_⟩
  obtain ⟨r0, r1, k, hk⟩ := timeMod1_eq (Th0 + u * (360.985647 / 360))
  have hpi := pi_pos
  have main : ∀ (A : ℝ), A ≠ 0 → ∀ h : ℝ, A * (-turnRad ((timeFromRad h - timeFromRad h0) / A)) = h0 - h := by
    intro A hA h
    unfold turnRad timeFromRad
    field_simp
    ring
  have hα : ∀ y1 y2 y3 : ℝ, y2 + n / 2 * (y3 - y1 + n * (y3 - 2 * y2 + y1)) =
      (⟨-86400, 86400, [y1, y2, y3], y2 - y1, y3 - y2, y3 - y2 - (y2 - y1), y2 - y1 + (y3 - y2), 86400 + -86400, 86400 - -86400⟩ :
        Interp.Len3).InterpolateX (u + ΔT) := by
    intro y1 y2 y3
    unfold Interp.Len3.InterpolateX Interp.Len3.InterpolateN Interp.Len3.y1
    simp only [List.getD_cons_succ, List.getD_cons_zero]
    ring
  have hHrad : timeRad (timeMod1 (Th0 + u * (360.985647 / 360))) - p.Lon - α = H - k * (2 * π) := by
    show _ = turnRad (Th0 + u * (360.985647 / 360)) - p.Lon - α - k * (2 * π)
    rw [hk]
    unfold turnRad timeRad
    have : timeMod1 (timeMod1 (Th0 + u * (360.985647 / 360)) + k * 86400) = timeMod1 (Th0 + u * (360.985647 / 360)) := by
      rw [← hk]
    rw [this]
    ring
  have hv : v = Rise.adjustRS p ΔT h0 Th0
      ⟨-86400, 86400, [α1, α2, α3], α2 - α1, α3 - α2, α3 - α2 - (α2 - α1), α2 - α1 + (α3 - α2), 86400 + -86400, 86400 - -86400⟩
      ⟨-86400, 86400, [δ1, δ2, δ3], δ2 - δ1, δ3 - δ2, δ3 - δ2 - (δ2 - δ1), δ2 - δ1 + (δ3 - δ2), 86400 + -86400, 86400 - -86400⟩ u := by
    rcases huv with ⟨rfl, rfl⟩ | ⟨rfl, rfl⟩ <;> rfl
  rw [hv]
  unfold Rise.adjustRS
  dsimp only
  rw [← hα α1 α2 α3, ← hα δ1 δ2 δ3]
  show _ * turnRad (u + (timeFromRad (arcsin (sin p.Lat * sin δ + cos p.Lat * cos δ * cos (timeRad (timeMod1 (Th0 + u * (360.985647 / 360))) - p.Lon - α))) - timeFromRad h0) /
    (cos δ * cos p.Lat * sin (timeRad (timeMod1 (Th0 + u * (360.985647 / 360))) - p.Lon - α)) - u) = _
  rw [hHrad, sin_sub_int_mul_two_pi, cos_sub_int_mul_two_pi, add_sub_cancel_left]
  have := main _ hH (altitude p.Lat δ H)
  unfold altitude at this ⊢
  linarith

/-- C61 is false: a star on the equator with right ascension one second short of 24h, seen from Greenwich's equator on a day that
begins at sidereal time 0, is reported to transit later than 172500 s, a day late. -/
theorem C61_violation : ∃ (p : Rise.Coord) (ΔT h0 Th0 α δ : ℝ) (t : Rise.Three),
    0 ≤ α ∧ α < 2 * π ∧ 0 ≤ Th0 ∧ Th0 < 86400 ∧
    Rise.Times p ΔT h0 Th0 α α α δ δ δ = .ok t ∧ 172500 < t.transit := by
  have hpi := pi_pos
  obtain ⟨a, ha⟩ : ∃ a, Rise.ApproxTimes ⟨0, 0⟩ 0 0 (86399 * π / 43200) 0 = .ok a := by
    unfold Rise.ApproxTimes; simp [not_lt.2 (zero_le_one' ℝ)]
  have hat : a.transit = 86399 := by
    unfold Rise.ApproxTimes at ha
    simp [not_lt.2 (zero_le_one' ℝ)] at ha
    rw [← ha]
    dsimp only
    refine pmod_unique (by norm_num) (by norm_num) (by norm_num) 0 ?_
    unfold timeFromRad
    field_simp
    ring
  obtain ⟨t, ht⟩ : ∃ t, Rise.Times ⟨0, 0⟩ 0 0 0 (86399 * π / 43200) (86399 * π / 43200) (86399 * π / 43200) 0 0 0 = .ok t := by
    unfold Rise.Times
    rw [ha]
    unfold Interp.NewLen3
    dsimp only
    have hne : ¬ (86400 : ℝ) = -86400 := by norm_num
    rw [if_neg hne, if_neg hne]
    exact ⟨_, rfl⟩
  refine ⟨⟨0, 0⟩, 0, 0, 0, 86399 * π / 43200, 0, t, by positivity, by nlinarith, le_refl _, by norm_num, ht, ?_⟩
  unfold Rise.Times at ht
  rw [ha] at ht
  unfold Interp.NewLen3 at ht
  dsimp only at ht
  have hne : ¬ (86400 : ℝ) = -86400 := by norm_num
  rw [if_neg hne, if_neg hne] at ht
  cases ht
  dsimp only
  rw [hat]
  have : timeMod1 (0 + 86399 * (360.985647 / 360)) = 86399 * (360.985647 / 360) - 86400 :=
    pmod_unique (by norm_num) (by norm_num) (by norm_num) 1 (by norm_num)
  rw [this]
  unfold timeFromRad Interp.Len3.InterpolateX Interp.Len3.InterpolateN Interp.Len3.y1
  simp only [List.getD_cons_succ, List.getD_cons_zero]
  have e : (0 + (86399 * π / 43200 + (2 * (86399 + 0) - (86400 + -86400)) / (86400 - -86400) * 0.5 *
    (86399 * π / 43200 - 86399 * π / 43200 + (86399 * π / 43200 - 86399 * π / 43200) +
      (2 * (86399 + 0) - (86400 + -86400)) / (86400 - -86400) *
        (86399 * π / 43200 - 86399 * π / 43200 - (86399 * π / 43200 - 86399 * π / 43200))))) * 43200 / π = 86399 := by
    field_simp
    ring
  rw [e]
  norm_num

/-! Sidereal time -/

/-- The civil day containing a non-negative Julian Day begins at midnight. -/
theorem day_of {n : ℤ} {x : ℝ} (hn : 0 ≤ n) (h0 : 0 ≤ x) (h1 : x < 1) :
    modf ((n : ℝ) - 0.5 + x + 0.5) = (n, x) := by
  unfold modf
  have e : (n : ℝ) - 0.5 + x + 0.5 = n + x := by ring
  rw [e]
  have hn' : (0 : ℝ) ≤ n := by exact_mod_cast hn
  rw [trunc_nonneg (by linarith)]
  have : ⌊(n : ℝ) + x⌋ = n := by rw [Int.floor_eq_iff]; constructor <;> linarith
  rw [this]
  simp

/-- C62: the results lie in [0, 86400). -/
theorem C62_range (nut : ℝ → ℝ) (jd : ℝ) :
    Sidereal.Mean jd ∈ Set.Ico 0 86400 ∧ Sidereal.Mean0UT jd ∈ Set.Ico 0 86400 ∧
    Sidereal.Apparent nut jd ∈ Set.Ico 0 86400 ∧ Sidereal.Apparent0UT nut jd ∈ Set.Ico 0 86400 :=
  ⟨⟨(timeMod1_eq _).1, (timeMod1_eq _).2.1⟩, ⟨(timeMod1_eq _).1, (timeMod1_eq _).2.1⟩,
    ⟨(timeMod1_eq _).1, (timeMod1_eq _).2.1⟩, ⟨(timeMod1_eq _).1, (timeMod1_eq _).2.1⟩⟩

/-- C62: on the civil day from n - .5 to n + .5 `Mean0UT` is the IAU 1982 expression at the beginning of the day, `Mean` exceeds it by
1.00273790935 times the seconds of the day elapsed, and `Apparent` exceeds `Mean` by the nutation; all modulo 24h. -/
theorem C62_day (nut : ℝ → ℝ) (n : ℤ) (x : ℝ) (hn : 0 ≤ n) (h0 : 0 ≤ x) (h1 : x < 1) :
    let T := ((n : ℝ) - 0.5 - 2451545) / 36525
    let jd := (n : ℝ) - 0.5 + x
    (∃ k : ℤ, Sidereal.Mean0UT jd = 24110.54841 + 8640184.812866 * T + 0.093104 * T ^ 2 + 0.0000062 * T ^ 3 + k * 86400) ∧
    Sidereal.Mean0UT jd = Sidereal.Mean0UT (n - 0.5) ∧
    (∃ k : ℤ, Sidereal.Mean jd = Sidereal.Mean0UT jd + 1.00273790935 * (86400 * x) + k * 86400) ∧
    ∃ k : ℤ, Sidereal.Apparent nut jd = Sidereal.Mean jd + nut jd + k * 86400 := by
  intro T jd
  have hd : modf (jd + 0.5) = (n, x) := day_of hn h0 h1
  have hd0 : modf ((n : ℝ) - 0.5 + 0.5) = (n, 0) := by
    have := day_of (x := 0) hn le_rfl (by norm_num)
    rwa [add_zero] at this
  unfold Sidereal.Apparent Sidereal.Mean Sidereal.Mean0UT Sidereal.mean Sidereal.mean0UT Sidereal.jdToCFrac
  rw [hd, hd0]
  dsimp only
  obtain ⟨-, -, k1, e1⟩ := timeMod1_eq (hornerR (J2000Century (n - 0.5)) Sidereal.iau82)
  obtain ⟨-, -, k2, e2⟩ := timeMod1_eq (hornerR (J2000Century (n - 0.5)) Sidereal.iau82 + x * 86400 * 1.00273790935)
  obtain ⟨-, -, k3, e3⟩ := timeMod1_eq (hornerR (J2000Century (n - 0.5)) Sidereal.iau82 + x * 86400 * 1.00273790935 + nut jd)
  have eh : hornerR (J2000Century (n - 0.5)) Sidereal.iau82 =
      24110.54841 + 8640184.812866 * T + 0.093104 * T ^ 2 + 0.0000062 * T ^ 3 := by
    simp only [hornerR, Sidereal.iau82, List.foldr, J2000Century]
    ring
  refine ⟨⟨-k1, ?_⟩, rfl, ⟨k1 - k2, ?_⟩, k2 - k3, ?_⟩
  · push_cast; linarith
  · push_cast; linarith
  · push_cast; linarith

/-- C62: from the end of one day to the beginning of the next `Mean` jumps by less than a millisecond, in the ten centuries either
side of 2000. -/
theorem C62_midnight (n : ℤ) (hn : |((n : ℝ) - 2451545) / 36525| ≤ 10) :
    ∃ k : ℤ, |Sidereal.Mean0UT (n + 1 - 0.5) - (Sidereal.Mean0UT (n - 0.5) + 1.00273790935 * 86400) + k * 86400| < 0.001 := by
  have hn0 : 0 ≤ n := by
    have := (abs_le.1 hn).1
    rw [le_div_iff₀ (by norm_num)] at this
    have h : (0 : ℝ) ≤ n := by linarith
    exact_mod_cast h
  obtain ⟨⟨k1, e1⟩, -⟩ := C62_day (fun _ => 0) n 0 hn0 le_rfl (by norm_num)
  obtain ⟨⟨k2, e2⟩, -⟩ := C62_day (fun _ => 0) (n + 1) 0 (by omega) le_rfl (by norm_num)
  push_cast at e2
  rw [add_zero] at e1 e2
  rw [e1, e2]
  refine ⟨k1 - k2 + 1, ?_⟩
  push_cast
  set T := ((n : ℝ) - 2451545) / 36525 with hT
  have t1 : ((n : ℝ) - 0.5 - 2451545) / 36525 = T - 0.5 / 36525 := by rw [hT]; ring
  have t2 : ((n : ℝ) + 1 - 0.5 - 2451545) / 36525 = T + 0.5 / 36525 := by rw [hT]; ring
  rw [t1, t2]
  have hb := abs_le.1 hn
  have key : 24110.54841 + 8640184.812866 * (T + 0.5 / 36525) + 0.093104 * (T + 0.5 / 36525) ^ 2 +
      0.0000062 * (T + 0.5 / 36525) ^ 3 + k2 * 86400 -
      (24110.54841 + 8640184.812866 * (T - 0.5 / 36525) + 0.093104 * (T - 0.5 / 36525) ^ 2 +
      0.0000062 * (T - 0.5 / 36525) ^ 3 + k1 * 86400 + 1.00273790935 * 86400) + (k1 - k2 + 1) * 86400 =
      8640184.812866 / 36525 + 2 * 0.093104 * T / 36525 + 0.0000062 * (3 * T ^ 2 / 36525 + 0.25 / 36525 ^ 3)
        - 0.00273790935 * 86400 := by ring
  rw [key]
  have hT2 : T ^ 2 ≤ 100 := by nlinarith
  have hT3 : 0 ≤ T ^ 2 := sq_nonneg T
  rw [abs_lt]
  constructor <;> norm_num <;> nlinarith

/-- C63 is false on every day: at noon `Apparent0UT` differs from its value at 0h by more than 12 hours (43318 s), whatever the
nutation. -/
theorem C63_violation (nut : ℝ → ℝ) (n : ℤ) (hn : 0 ≤ n) :
    Sidereal.Apparent0UT nut n ≠ Sidereal.Apparent0UT nut (n - 0.5) := by
  have hd : modf ((n : ℝ) + 0.5) = (n, 0.5) := by
    have := day_of (x := 0.5) hn (by norm_num) (by norm_num)
    rwa [sub_add_cancel] at this
  have hd0 : modf ((n : ℝ) - 0.5 + 0.5) = (n, 0) := by
    have := day_of (x := 0) hn le_rfl (by norm_num)
    rwa [add_zero] at this
  unfold Sidereal.Apparent0UT
  rw [hd, hd0]
  dsimp only
  set A := hornerR (((n : ℝ) - 0.5 - 2451545) / 36525) Sidereal.iau82
  obtain ⟨-, -, k1, e1⟩ := timeMod1_eq (A + 0.5 * 1.00273790935 * 86400 + nut n)
  obtain ⟨-, -, k2, e2⟩ := timeMod1_eq (A + 0 * 1.00273790935 * 86400 + nut n)
  intro h
  rw [h] at e1
  have : (0.5 * 1.00273790935 : ℝ) = ((k1 - k2 : ℤ) : ℝ) := by
    push_cast
    linarith
  have h1 : (0 : ℝ) < ((k1 - k2 : ℤ) : ℝ) := by rw [← this]; norm_num
  have h2 : ((k1 - k2 : ℤ) : ℝ) < 1 := by rw [← this]; norm_num
  have h1' : 0 < k1 - k2 := by exact_mod_cast h1
  have h2' : k1 - k2 < 1 := by exact_mod_cast h2
  omega

/-- C63, largest part: for a day passed as its 0h, `Apparent0UT` is `Mean0UT` plus a nutation in right ascension modulo 24h.  Missing
for the full property: other instants of the day, and the nutation is that of the following noon. -/
theorem C63_midnight_partial (nut : ℝ → ℝ) (n : ℤ) (hn : 0 ≤ n) :
    ∃ k : ℤ, Sidereal.Apparent0UT nut (n - 0.5) = Sidereal.Mean0UT (n - 0.5) + nut n + k * 86400 := by
  have hd0 : modf ((n : ℝ) - 0.5 + 0.5) = (n, 0) := by
    have := day_of (x := 0) hn le_rfl (by norm_num)
    rwa [add_zero] at this
  unfold Sidereal.Apparent0UT Sidereal.Mean0UT Sidereal.mean0UT Sidereal.jdToCFrac J2000Century
  rw [hd0]
  dsimp only
  set A := hornerR (((n : ℝ) - 0.5 - 2451545) / 36525) Sidereal.iau82
  obtain ⟨-, -, k1, e1⟩ := timeMod1_eq (A + 0 * 1.00273790935 * 86400 + nut n)
  obtain ⟨-, -, k2, e2⟩ := timeMod1_eq A
  refine ⟨k2 - k1, ?_⟩
  push_cast
  linarith

end Verif.Props
