import Verif.Model.RisePlanet
import Verif.Props.MoonPos
import Verif.Props.Rise
/-
C156, C157: rising, transit and setting of a planet; standard altitude of the Moon.
-/
namespace Verif.Props

open Real Verif.Go Verif.Model Verif.Model.Julian

/-- Seconds of sidereal time in a second of UT, as package rise has it. -/
noncomputable def sidRate : ℝ := 360.985647 / 360

/-- The corrected transit: the uncorrected one less the hour angle, with the whole days written out. -/
theorem times_transit (p : Rise.Coord) (ΔT h0 Th0 α1 α2 α3 δ1 δ2 δ3 : ℝ) (a : Rise.Three) (ha : Rise.ApproxTimes p h0 Th0 α2 δ2 = .ok a) :
    ∃ t, Rise.Times p ΔT h0 Th0 α1 α2 α3 δ1 δ2 δ3 = .ok t ∧ ∃ j : ℤ, 0 ≤ Th0 + a.transit * sidRate - j * 86400 ∧ Th0 + a.transit * sidRate - j * 86400 < 86400 ∧
      t.transit = a.transit - (Th0 + a.transit * sidRate - j * 86400) +
        (p.Lon + (α2 + (a.transit + ΔT) / 86400 / 2 * (α3 - α1 + (a.transit + ΔT) / 86400 * (α3 - 2 * α2 + α1)))) * 43200 / π := by
  unfold Rise.Times
  rw [ha]
  unfold Interp.NewLen3
  dsimp only
  have hne : ¬ (86400 : ℝ) = -86400 := by norm_num
  rw [if_neg hne, if_neg hne]
  refine ⟨_, rfl, ?_⟩
  obtain ⟨m0, m1, j, hj⟩ := timeMod1_eq (Th0 + a.transit * (360.985647 / 360))
  refine ⟨j, by unfold sidRate; linarith, by unfold sidRate; linarith, ?_⟩
  dsimp only
  unfold timeFromRad Interp.Len3.InterpolateX Interp.Len3.InterpolateN Interp.Len3.y1
  simp only [List.getD_cons_succ, List.getD_cons_zero]
  unfold sidRate
  rw [show timeMod1 (Th0 + a.transit * (360.985647 / 360)) = Th0 + a.transit * (360.985647 / 360) - j * 86400 by linarith]
  field_simp
  ring

/-- The local hour angle at t seconds of UT of a body whose right ascension is α at 0h TD and grows by μ in a day. -/
noncomputable def hourAngle (Th0 L α μ ΔT t : ℝ) : ℝ := turnRad (Th0 + t * sidRate) - L - (α + μ * ((t + ΔT) / 86400))

/-- **C156, largest part.**  Uniform motion in right ascension, not passing 24h in the three days: the hour angle at the time of transit differs from whole turns by the
fraction (μ/2π − 0.0027) of the correction applied to the approximate time.  Missing: days on which the right ascension passes 24h. -/
theorem C156_transit_partial (pos : ℝ → ℝ × ℝ) (nut ΔT : ℝ → ℝ) (yr mon day : ℤ) (p : Rise.Coord) (α μ : ℝ) (a : Rise.Three)
    (hpos : ∀ i ∈ [(-1 : ℝ), 0, 1], (pos (CalendarGregorianToJD yr mon day + i)).1 = α + μ * i)
    (ha : Rise.ApproxPlanet pos nut yr mon day p = .ok a) :
    ∃ t, Rise.Planet pos nut ΔT yr mon day p = .ok t ∧
      let H := hourAngle (Sidereal.Apparent0UT nut (CalendarGregorianToJD yr mon day)) p.Lon α μ (ΔT (CalendarGregorianToJD yr mon day))
      ∃ k : ℤ, turnRad (t.transit - a.transit) = -(H a.transit - k * (2 * π)) ∧
        H t.transit = k * (2 * π) + (H a.transit - k * (2 * π)) * (μ / (2 * π) - 0.985647 / 360) := by
  have hπ := pi_pos
  obtain ⟨jd, hjd⟩ : ∃ jd, jd = CalendarGregorianToJD yr mon day := ⟨_, rfl⟩
  unfold Rise.ApproxPlanet at ha
  unfold Rise.Planet
  simp only [← hjd] at *
  have h0 := hpos (-1) (by simp)
  have h1 := hpos 0 (by simp)
  have h2 := hpos 1 (by simp)
  rw [← sub_eq_add_neg] at h0
  rw [add_zero] at h1
  obtain ⟨Th0, hTh⟩ : ∃ Th0, Th0 = Sidereal.Apparent0UT nut jd := ⟨_, rfl⟩
  rw [← hTh] at ha ⊢
  obtain ⟨t, ht, j, -, -, hj⟩ := times_transit p (ΔT jd) Rise.Stdh0Stellar Th0 (pos (jd - 1)).1 (pos jd).1 (pos (jd + 1)).1 (pos (jd - 1)).2 (pos jd).2
    (pos (jd + 1)).2 a ha
  refine ⟨t, ht, j, ?_⟩
  rw [h0, h1, h2] at hj
  have e : turnRad (t.transit - a.transit) = -(hourAngle Th0 p.Lon α μ (ΔT jd) a.transit - j * (2 * π)) := by
    rw [hj]
    unfold hourAngle turnRad
    field_simp
    ring
  refine ⟨e, ?_⟩
  have e2 : hourAngle Th0 p.Lon α μ (ΔT jd) t.transit =
      hourAngle Th0 p.Lon α μ (ΔT jd) a.transit + turnRad (t.transit - a.transit) * (sidRate - μ / (2 * π)) := by
    unfold hourAngle turnRad
    field_simp
    ring
  rw [e2, e]
  unfold sidRate
  ring

theorem off_turn {w : ℝ} (h1 : -0.82 ≤ w) (h2 : w ≤ -0.73) (m : ℤ) : 0.7 ≤ |(m : ℝ) * (2 * π) + w| := by
  have hπ := pi_gt_three
  rcases lt_trichotomy m 0 with h | h | h
  · have : (m : ℝ) ≤ -1 := by exact_mod_cast (by omega : m ≤ -1)
    rw [abs_of_neg (by nlinarith)]
    nlinarith
  · rw [h, abs_of_neg (by push_cast; linarith)]
    push_cast
    linarith
  · have : (1 : ℝ) ≤ (m : ℝ) := by exact_mod_cast (by omega : 1 ≤ m)
    rw [abs_of_pos (by nlinarith)]
    nlinarith

set_option maxHeartbeats 1000000 in
/-- C156 is false: on any date, and whatever the nutation, take a body moving uniformly by 0.02 radians a day along the equator that reaches right ascension 24h at 0h.  There
is a place on the equator where the transit is at noon but is reported at a time when the hour angle is at least 0.7 radians (2.7 hours) from zero. -/
theorem C156_wrap_violation (nut ΔT : ℝ → ℝ) (yr mon day : ℤ) (hΔ : |ΔT (CalendarGregorianToJD yr mon day)| ≤ 1000) :
    ∃ (p : Rise.Coord) (t : Rise.Three),
      Rise.Planet (fun d => (mod1 (0.02 * (d - CalendarGregorianToJD yr mon day)), 0)) nut ΔT yr mon day p = .ok t ∧
      ∀ k : ℤ, 0.7 ≤ |hourAngle (Sidereal.Apparent0UT nut (CalendarGregorianToJD yr mon day)) p.Lon 0 0.02 (ΔT (CalendarGregorianToJD yr mon day)) t.transit - k * (2 * π)| := by
  have hπ := pi_pos
  have hπ3 := pi_gt_three
  obtain ⟨jd, hjd⟩ : ∃ jd, jd = CalendarGregorianToJD yr mon day := ⟨_, rfl⟩
  unfold Rise.Planet
  simp only [← hjd] at *
  obtain ⟨Th0, hTh⟩ : ∃ Th0, Th0 = Sidereal.Apparent0UT nut jd := ⟨_, rfl⟩
  have hT0 : 0 ≤ Th0 ∧ Th0 < 86400 := by
    rw [hTh]; exact ⟨(C62_range nut jd).2.2.2.1, (C62_range nut jd).2.2.2.2⟩
  rw [← hTh]
  have m0 : mod1 (0.02 * (jd - 1 - jd)) = 2 * π - 0.02 := pmod_unique (by positivity) (by linarith) (by linarith) (-1) (by push_cast; ring)
  have m1 : mod1 (0.02 * (jd - jd)) = 0 := pmod_unique (by positivity) (by linarith) (by linarith) 0 (by push_cast; ring)
  have m2 : mod1 (0.02 * (jd + 1 - jd)) = 0.02 := pmod_unique (by positivity) (by norm_num) (by linarith) 0 (by push_cast; ring)
  rw [m0, m1, m2]
  obtain ⟨a, ha, hat⟩ : ∃ a, Rise.ApproxTimes ⟨0, turnRad (43200 + Th0)⟩ Rise.Stdh0Stellar Th0 0 0 = .ok a ∧ a.transit = 43200 := by
    unfold Rise.ApproxTimes
    have hs := abs_le.1 (abs_sin_le_one Rise.Stdh0Stellar)
    dsimp only
    rw [if_neg (by simp; exact ⟨hs.1, hs.2⟩)]
    refine ⟨_, rfl, ?_⟩
    dsimp only
    refine pmod_unique (by norm_num) (by norm_num) (by norm_num) 0 ?_
    unfold timeFromRad turnRad
    field_simp
    ring
  obtain ⟨t, ht, j, j0, j1, hj⟩ := times_transit ⟨0, turnRad (43200 + Th0)⟩ (ΔT jd) Rise.Stdh0Stellar Th0 (2 * π - 0.02) 0 0.02 0 0 0 a ha
  refine ⟨_, t, ht, ?_⟩
  rw [hat] at j0 j1 hj
  obtain ⟨n, hn⟩ : ∃ n, n = (43200 + ΔT jd) / 86400 := ⟨_, rfl⟩
  rw [← hn] at hj
  obtain ⟨a1, a2⟩ := abs_le.1 hΔ
  have n1 : 0.488 ≤ n := by rw [hn]; linarith
  have n2 : n ≤ 0.512 := by rw [hn]; linarith
  have hjb : j = 0 ∨ j = 1 := by
    unfold sidRate at j0 j1
    have b1 : (-1 : ℝ) < j := by linarith [hT0.1]
    have b2 : (j : ℝ) < 2 := by linarith [hT0.2]
    have b1' : -1 < j := by exact_mod_cast b1
    have b2' : j < 2 := by exact_mod_cast b2
    omega
  have hj01 : (0 : ℝ) ≤ j ∧ (j : ℝ) ≤ 1 := by rcases hjb with h | h <;> rw [h] <;> norm_num
  obtain ⟨q, hq⟩ : ∃ q, q = 0.02 * n - π * (n * (1 - n)) := ⟨_, rfl⟩
  have hnn : 0.2498 ≤ n * (1 - n) ∧ n * (1 - n) ≤ 0.25 := by constructor <;> nlinarith [sq_nonneg (n - 0.5)]
  have hp1 := pi_gt_d2
  have hp2 := pi_lt_d2
  have q1 : -0.78 ≤ q := by rw [hq]; nlinarith
  have q2 : q ≤ -0.77 := by rw [hq]; nlinarith
  have ht' : t.transit = 86400 * (1 + j) - 43200 * sidRate + q * 43200 / π := by
    rw [hj, hq]
    unfold turnRad
    field_simp
    ring
  have e : hourAngle Th0 (turnRad (43200 + Th0)) 0 0.02 (ΔT jd) t.transit =
      j * (2 * π) + (2 * π * (0.985647 / 360 * j - (0.985647 / 360) ^ 2 / 2) + sidRate * q - 0.02 * ((t.transit + ΔT jd) / 86400)) := by
    unfold hourAngle
    rw [zero_add]
    unfold turnRad
    rw [show (Th0 + t.transit * sidRate) / 86400 * (2 * π) = Th0 / 86400 * (2 * π) + (86400 * (1 + j) - 43200 * sidRate + q * 43200 / π) * sidRate / 86400 * (2 * π) by
      rw [ht']; ring]
    unfold sidRate
    field_simp
    ring
  have hqπ : -0.25 ≤ q / π ∧ q / π ≤ -0.24 := by
    rw [le_div_iff₀ hπ, div_le_iff₀ hπ]
    constructor <;> linarith
  have ht1 : 0.35 ≤ (t.transit + ΔT jd) / 86400 ∧ (t.transit + ΔT jd) / 86400 ≤ 1.4 := by
    rw [ht', mul_div_right_comm]
    unfold sidRate
    constructor <;> linarith [hqπ.1, hqπ.2]
  obtain ⟨w, hw⟩ : ∃ w, w = 2 * π * (0.985647 / 360 * j - (0.985647 / 360) ^ 2 / 2) + sidRate * q - 0.02 * ((t.transit + ΔT jd) / 86400) := ⟨_, rfl⟩
  have w0 : -0.0001 ≤ 2 * π * (0.985647 / 360 * j - (0.985647 / 360) ^ 2 / 2) ∧ 2 * π * (0.985647 / 360 * j - (0.985647 / 360) ^ 2 / 2) ≤ 0.02 := by
    have f1 : -0.000004 ≤ 0.985647 / 360 * (j : ℝ) - (0.985647 / 360) ^ 2 / 2 := by norm_num; linarith [hj01.1]
    have f2 : 0.985647 / 360 * (j : ℝ) - (0.985647 / 360) ^ 2 / 2 ≤ 0.003 := by norm_num; linarith [hj01.2]
    constructor <;> nlinarith
  have w1 : -0.82 ≤ w ∧ w ≤ -0.73 := by
    rw [hw]
    unfold sidRate
    constructor <;> linarith [w0.1, w0.2, ht1.1, ht1.2]
  intro k
  rw [e, ← hw, show (j : ℝ) * (2 * π) + w - k * (2 * π) = ((j - k : ℤ) : ℝ) * (2 * π) + w by push_cast; ring]
  exact off_turn w1.1 w1.2 _

/-- A star on the equator, seen from the equator: the hypotheses of the first theorem hold on any date. -/
example (nut : ℝ → ℝ) : ∃ a, Rise.ApproxPlanet (fun _ => (1, 0)) nut 2000 1 1 ⟨0, 0⟩ = .ok a := by
  unfold Rise.ApproxPlanet Rise.ApproxTimes
  have hs := abs_le.1 (abs_sin_le_one Rise.Stdh0Stellar)
  dsimp only
  rw [if_neg (by simp; exact ⟨hs.1, hs.2⟩)]
  exact ⟨_, rfl⟩

/-- C156: `ApproxPlanet` gives the times of `ApproxTimes` (C60) for the place of the planet at 0h, the standard altitude of a star and the sidereal time of the day: in particular
the body, if it stayed there, would be at −34′ at the times of rising and setting. -/
theorem C156_approx (pos : ℝ → ℝ × ℝ) (nut : ℝ → ℝ) (yr mon day : ℤ) (p : Rise.Coord) (hφ : |p.Lat| < π / 2)
    (hδ : |(pos (CalendarGregorianToJD yr mon day)).2| < π / 2) (t : Rise.Three) (ht : Rise.ApproxPlanet pos nut yr mon day p = .ok t) :
    let Th0 := Sidereal.Apparent0UT nut (CalendarGregorianToJD yr mon day)
    let q := pos (CalendarGregorianToJD yr mon day)
    (t.rise ∈ Set.Ico 0 86400 ∧ t.transit ∈ Set.Ico 0 86400 ∧ t.set ∈ Set.Ico 0 86400) ∧
    altitude p.Lat q.2 (turnRad (Th0 + t.rise) - p.Lon - q.1) = -(34 / 60) * (π / 180) ∧
    altitude p.Lat q.2 (turnRad (Th0 + t.set) - p.Lon - q.1) = -(34 / 60) * (π / 180) ∧
    ∃ k : ℤ, turnRad (Th0 + t.transit) - p.Lon - q.1 = k * (2 * π) := by
  have hπ := pi_pos
  have hs : |Rise.Stdh0Stellar| ≤ π / 2 := by
    unfold Rise.Stdh0Stellar deg
    rw [abs_le]; constructor <;> linarith
  obtain ⟨h1, h2, h3, -, -, h4, -⟩ := C60_times p _ _ _ _ hφ hδ hs t ht
  intro Th0 q
  refine ⟨h1, ?_, ?_, h4⟩
  · rw [h2]; unfold Rise.Stdh0Stellar deg; ring
  · rw [h3]; unfold Rise.Stdh0Stellar deg; ring

/-- **C157.**  The standard altitude of the Moon is the true altitude of its centre when the upper limb of the disk, of semidiameter 0.2725 of the parallax, is seen from the surface
at the horizon, where the refraction is 34′; for the parallaxes of package moonposition it stays within 0.06° of `Stdh0LunarMean`, from year 0 to 4000. -/
theorem C157_lunar (jde : ℝ) (h : |J2000Century jde| ≤ 20) :
    let π0 := Moonposition.Parallax (Moonposition.Position jde).2.2
    Rise.Stdh0Lunar π0 - π0 + 0.2725 * π0 + 34 / 60 * (π / 180) = 0 ∧ |Rise.Stdh0Lunar π0 - Rise.Stdh0LunarMean| ≤ 0.06 * deg := by
  intro π0
  obtain ⟨h1, h2⟩ := C126_moon_parallax jde h
  have hd : 0 < deg := by unfold deg; positivity
  refine ⟨by unfold Rise.Stdh0Lunar deg; ring, ?_⟩
  unfold Rise.Stdh0Lunar Rise.Stdh0LunarMean
  change 52.8 / 60 * deg < π0 at h1
  change π0 < 61.8 / 60 * deg at h2
  rw [abs_le]
  constructor <;> linarith

/-- J2000. -/
example : |J2000Century 2451545| ≤ 20 := by unfold J2000Century; norm_num

end Verif.Props
