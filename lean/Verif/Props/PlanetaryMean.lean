import Verif.Model.Deltat
import Verif.Model.Solar
import Verif.Props.Planetary
import Mathlib.Tactic
/-
C145: the cycles of package planetary against the mean longitudes of packages planetelements and solar.
-/
namespace Verif.Props

open Real Verif.Go Verif.Model Verif.Model.Planetary

/-- The Sun's mean longitude from what package solar returns: true longitude less true anomaly plus mean anomaly. -/
noncomputable def sunMeanLon (jde : ℝ) : ℝ :=
  (Solar.TrueLon (J2000Century jde)).1 - (Solar.TrueLon (J2000Century jde)).2 + Solar.MeanAnomaly (J2000Century jde)

/-- The mean heliocentric longitude of planet `p` (of planetelements) is that of the Sun plus `off`, up to whole turns and `tol` degrees. -/
def Aligned (p : ℕ) (off tol jde : ℝ) : Prop :=
  ∃ E, PlanetElements.Mean p jde = some E ∧ ∃ m : ℤ, |E.Lon - sunMeanLon jde - off - m * (2 * π)| ≤ tol * (π / 180)

theorem sunMeanLon_eq (jde : ℝ) : ∃ m : ℤ, sunMeanLon jde =
    (280.46646 + 36000.76983 * J2000Century jde + 0.0003032 * J2000Century jde ^ 2) * deg + m * (2 * π) := by
  unfold sunMeanLon Solar.TrueLon
  generalize J2000Century jde = T
  obtain ⟨-, -, k1, h1⟩ := mod1_eq (Solar.meanLon T + Solar.center T)
  obtain ⟨-, -, k2, h2⟩ := mod1_eq (Solar.MeanAnomaly T + Solar.center T)
  refine ⟨k2 - k1, ?_⟩
  have e : Solar.meanLon T = (280.46646 + 36000.76983 * T + 0.0003032 * T ^ 2) * deg := by
    unfold Solar.meanLon; simp only [hornerR, List.foldr_cons, List.foldr_nil]; ring
  simp only
  rw [← e]
  push_cast
  linarith

theorem align_core (A B l0 l1 l2 l3 o tol e0 e1 T jde : ℝ) (k m0 σ : ℤ) (hB : 0 < B) (hj : jde = A + k * B) (hr : |jde - 2451545| ≤ 730500)
    (hA : |A - 2451545| ≤ 600) (hT : T = (jde - 2451545) / 36525)
    (h0 : |l0 - 280.46646 + (l1 - 36000.76983) * (A - 2451545) / 36525 - o - 360 * m0| ≤ e0)
    (h1 : |(l1 - 36000.76983) / 36525 * B - 360 * σ| ≤ e1 * B)
    (ht : e0 + e1 * 731100 + 400 * |l2 - 0.0003032| + 8000 * |l3| ≤ tol) :
    |(l0 + l1 * T + l2 * T ^ 2 + l3 * T ^ 3) - (280.46646 + 36000.76983 * T + 0.0003032 * T ^ 2) - o - 360 * (σ * k + m0)| ≤ tol := by
  have hT1 : |T| ≤ 20 := by
    rw [hT, abs_div, abs_of_pos (by norm_num : (0 : ℝ) < 36525), div_le_iff₀ (by norm_num)]; linarith
  have hk : |(k : ℝ)| * B ≤ 731100 := by
    have : |(k : ℝ)| * B = |k * B| := by rw [abs_mul, abs_of_pos hB]
    rw [this]
    have := abs_add_le (jde - 2451545) (-(A - 2451545))
    rw [abs_neg, show jde - 2451545 + -(A - 2451545) = k * B by rw [hj]; ring] at this
    linarith
  have e : (l0 + l1 * T + l2 * T ^ 2 + l3 * T ^ 3) - (280.46646 + 36000.76983 * T + 0.0003032 * T ^ 2) - o - 360 * (σ * k + m0) =
      (l0 - 280.46646 + (l1 - 36000.76983) * (A - 2451545) / 36525 - o - 360 * m0) + k * ((l1 - 36000.76983) / 36525 * B - 360 * σ) +
      ((l2 - 0.0003032) * T ^ 2 + l3 * T ^ 3) := by
    have : T = (A - 2451545) / 36525 + k * B / 36525 := by rw [hT, hj]; ring
    linear_combination (l1 - 36000.76983) * this
  rw [e]
  have q1 : |k * ((l1 - 36000.76983) / 36525 * B - 360 * σ)| ≤ e1 * 731100 := by
    rw [abs_mul]
    have he1 : 0 ≤ e1 := by
      by_contra hn
      push Not at hn
      have := (abs_nonneg _).trans h1
      nlinarith
    have := mul_le_mul_of_nonneg_left h1 (abs_nonneg (k : ℝ))
    have := mul_le_mul_of_nonneg_left hk he1
    linarith
  have q2 : |(l2 - 0.0003032) * T ^ 2 + l3 * T ^ 3| ≤ 400 * |l2 - 0.0003032| + 8000 * |l3| := by
    refine (abs_add_le _ _).trans ?_
    rw [abs_mul, abs_mul, abs_pow, abs_pow]
    have t2 := pow_le_pow_left₀ (abs_nonneg T) hT1 2
    have t3 := pow_le_pow_left₀ (abs_nonneg T) hT1 3
    have := mul_le_mul_of_nonneg_left t2 (abs_nonneg (l2 - 0.0003032))
    have := mul_le_mul_of_nonneg_left t3 (abs_nonneg l3)
    linarith
  refine (abs_add_le _ _).trans ?_
  have := abs_add_le (l0 - 280.46646 + (l1 - 36000.76983) * (A - 2451545) / 36525 - o - 360 * m0) (k * ((l1 - 36000.76983) / 36525 * B - 360 * σ))
  linarith

theorem aligned_of {F : ℝ → Option ℝ} {a : Ca} {c amp : ℝ} (h : Runs F a c amp) (hB : 0 < a.B) (hB' : a.B ≤ 800) (p : ℕ) (l0 l1 l2 l3 o near tol e0 e1 : ℝ)
    (m0 σ : ℤ) (hA : |a.A - 2451545| ≤ 600)
    (hM : ∀ jde, ∃ E, PlanetElements.Mean p jde = some E ∧
      E.Lon = mod1 ((((l3 * J2000Century jde + l2) * J2000Century jde + l1) * J2000Century jde + l0) * deg))
    (h0 : |l0 - 280.46646 + (l1 - 36000.76983) * (a.A - 2451545) / 36525 - o - 360 * m0| ≤ e0)
    (h1 : |(l1 - 36000.76983) / 36525 * a.B - 360 * σ| ≤ e1 * a.B)
    (ht : e0 + e1 * 731100 + 400 * |l2 - 0.0003032| + 8000 * |l3| ≤ tol) (hn : |c| + amp ≤ near) (y : ℝ) (hy : 10 ≤ y) (hy' : y ≤ 3990) :
    ∃ v J, F y = some v ∧ |v - J| ≤ near ∧ Aligned p (o * (π / 180)) tol J := by
  obtain ⟨G, hF, hG⟩ := h
  have hr := runs_range a hB hB' y hy hy'
  obtain ⟨v, hv, bv⟩ := hG _ hr
  refine ⟨v, a.A + cycleOf a y * a.B, (hF y).trans hv, ?_, ?_⟩
  · have := abs_add_le (v - (a.A + cycleOf a y * a.B) - c) c
    rw [sub_add_cancel] at this
    linarith
  · obtain ⟨J, hJ⟩ : ∃ J, J = a.A + cycleOf a y * a.B := ⟨_, rfl⟩
    rw [← hJ] at hr ⊢
    obtain ⟨E, hE, hL⟩ := hM J
    obtain ⟨m1, e1'⟩ := sunMeanLon_eq J
    have key := align_core a.A a.B l0 l1 l2 l3 o tol e0 e1 (J2000Century J) J (cycleOf a y) m0 σ hB hJ hr hA rfl h0 h1 ht
    obtain ⟨-, -, m2, e2⟩ := mod1_eq ((((l3 * J2000Century J + l2) * J2000Century J + l1) * J2000Century J + l0) * deg)
    refine ⟨E, hE, σ * cycleOf a y + m0 - m2 - m1, ?_⟩
    rw [hL, e1']
    have g0 : 0 < π / 180 := by positivity
    have e : mod1 ((((l3 * J2000Century J + l2) * J2000Century J + l1) * J2000Century J + l0) * deg) -
        ((280.46646 + 36000.76983 * J2000Century J + 0.0003032 * J2000Century J ^ 2) * deg + m1 * (2 * π)) - o * (π / 180) -
        ((σ * cycleOf a y + m0 - m2 - m1 : ℤ) : ℝ) * (2 * π) =
        ((l0 + l1 * J2000Century J + l2 * J2000Century J ^ 2 + l3 * J2000Century J ^ 3) -
          (280.46646 + 36000.76983 * J2000Century J + 0.0003032 * J2000Century J ^ 2) - o - 360 * (σ * cycleOf a y + m0)) * (π / 180) := by
      unfold deg at e2 ⊢
      push_cast
      linear_combination -e2
    rw [e, abs_mul, abs_of_pos g0]
    exact mul_le_mul_of_nonneg_right key g0.le

macro "meanlon" : tactic => `(tactic| (intro jde; exact ⟨_, rfl, rfl⟩))

/-- C145.  Each event of package planetary lies within the stated number of days from a date at which, by the mean longitudes of packages planetelements
and solar, the planet is as it should be: in inferior conjunction or opposition opposite to the Sun as seen from the Sun (in the direction of the Earth),
in superior conjunction in the direction of the Sun.  Years 10 to 3990. -/
theorem C145_alignment (y : ℝ) (h1 : 10 ≤ y) (h2 : y ≤ 3990) :
    (∃ v J, MercuryInfConj y = some v ∧ |v - J| ≤ 8.72 ∧ Aligned 0 (180 * (π / 180)) 0.01 J) ∧
    (∃ v J, MercurySupConj y = some v ∧ |v - J| ≤ 10.35 ∧ Aligned 0 (0 * (π / 180)) 0.01 J) ∧
    (∃ v J, VenusInfConj y = some v ∧ |v - J| ≤ 2.45 ∧ Aligned 1 (180 * (π / 180)) 0.01 J) ∧
    (∃ v J, MarsOpp y = some v ∧ |v - J| ≤ 33.5 ∧ Aligned 3 (180 * (π / 180)) 0.01 J) ∧
    (∃ v J, JupiterOpp y = some v ∧ |v - J| ≤ 7.97 ∧ Aligned 4 (180 * (π / 180)) 0.04 J) ∧
    (∃ v J, SaturnOpp y = some v ∧ |v - J| ≤ 7.92 ∧ Aligned 5 (180 * (π / 180)) 0.1 J) ∧
    (∃ v J, SaturnConj y = some v ∧ |v - J| ≤ 12.28 ∧ Aligned 5 (0 * (π / 180)) 0.1 J) ∧
    (∃ v J, UranusOpp y = some v ∧ |v - J| ≤ 6.74 ∧ Aligned 6 (180 * (π / 180)) 0.01 J) ∧
    (∃ v J, NeptuneOpp y = some v ∧ |v - J| ≤ 2.37 ∧ Aligned 7 (180 * (π / 180)) 0.01 J) := by
  refine ⟨?_, ?_, ?_, ?_, ?_, ?_, ?_, ?_, ?_⟩
  · exact aligned_of runs_micB (by norm_num [micA]) (by norm_num [micA]) 0 252.250906 149474.0722491 0.0003035 0.000000018 180 _ _ 0.00695 0.000000000611 (0) (1) (by norm_num [micA, abs_le])
      (by meanlon) (by norm_num [micA, abs_le]) (by norm_num [micA, abs_le]) (by norm_num [abs_of_neg, abs_of_pos]) (by norm_num [abs_of_neg, abs_of_pos]) y h1 h2
  · exact aligned_of runs_mscB (by norm_num [mscA]) (by norm_num [mscA]) 0 252.250906 149474.0722491 0.0003035 0.000000018 0 _ _ 0.00612 0.000000000611 (0) (1) (by norm_num [mscA, abs_le])
      (by meanlon) (by norm_num [mscA, abs_le]) (by norm_num [mscA, abs_le]) (by norm_num [abs_of_neg, abs_of_pos]) (by norm_num [abs_of_neg, abs_of_pos]) y h1 h2
  · exact aligned_of runs_vicB (by norm_num [vicA]) (by norm_num [vicA]) 1 181.979801 58519.2130302 0.00031014 0.000000015 180 _ _ 0.00028 0.000000000052 (0) (1) (by norm_num [vicA, abs_le])
      (by meanlon) (by norm_num [vicA, abs_le]) (by norm_num [vicA, abs_le]) (by norm_num [abs_of_neg, abs_of_pos]) (by norm_num [abs_of_neg, abs_of_pos]) y h1 h2
  · exact aligned_of runs_moB (by norm_num [moA]) (by norm_num [moA]) 3 355.433 19141.6964471 0.00031052 0.000000016 180 _ _ 0.00014 0.000000000406 (-1) (-1) (by norm_num [moA, abs_le])
      (by meanlon) (by norm_num [moA, abs_le]) (by norm_num [moA, abs_le]) (by norm_num [abs_of_neg, abs_of_pos]) (by norm_num [abs_of_neg, abs_of_pos]) y h1 h2
  · exact aligned_of runs_joB (by norm_num [joA]) (by norm_num [joA]) 4 34.351519 3036.3027748 0.0002233 0.000000037 180 _ _ 0.00007 0.000000000476 (-2) (-1) (by norm_num [joA, abs_le])
      (by meanlon) (by norm_num [joA, abs_le]) (by norm_num [joA, abs_le]) (by norm_num [abs_of_neg, abs_of_pos]) (by norm_num [abs_of_neg, abs_of_pos]) y h1 h2
  · exact aligned_of runs_soB (by norm_num [soA]) (by norm_num [soA]) 5 50.077444 1223.5110686 0.00051908 (-0.00000003) 180 _ _ 0.00058 0.000000001404 (-2) (-1) (by norm_num [soA, abs_le])
      (by meanlon) (by norm_num [soA, abs_le]) (by norm_num [soA, abs_le]) (by norm_num [abs_of_neg, abs_of_pos]) (by norm_num [abs_of_neg, abs_of_pos]) y h1 h2
  · exact aligned_of runs_scB (by norm_num [scA]) (by norm_num [scA]) 5 50.077444 1223.5110686 0.00051908 (-0.00000003) 0 _ _ 0.00062 0.000000001404 (-1) (-1) (by norm_num [scA, abs_le])
      (by meanlon) (by norm_num [scA, abs_le]) (by norm_num [scA, abs_le]) (by norm_num [abs_of_neg, abs_of_pos]) (by norm_num [abs_of_neg, abs_of_pos]) y h1 h2
  · exact aligned_of runs_uoB (by norm_num [uoA]) (by norm_num [uoA]) 6 314.055005 429.8640561 0.0003039 0.000000026 180 _ _ 0.00050 0.000000000776 (-1) (-1) (by norm_num [uoA, abs_le])
      (by meanlon) (by norm_num [uoA, abs_le]) (by norm_num [uoA, abs_le]) (by norm_num [abs_of_neg, abs_of_pos]) (by norm_num [abs_of_neg, abs_of_pos]) y h1 h2
  · exact aligned_of runs_noB (by norm_num [noA]) (by norm_num [noA]) 7 304.348665 219.8833092 0.00030882 0.000000018 180 _ _ 0.00024 0.000000001365 (-1) (-1) (by norm_num [noA, abs_le])
      (by meanlon) (by norm_num [noA, abs_le]) (by norm_num [noA, abs_le]) (by norm_num [abs_of_neg, abs_of_pos]) (by norm_num [abs_of_neg, abs_of_pos]) y h1 h2

theorem anomaly_of (a : Ca) (hB : 0 < a.B) (hB' : a.B ≤ 800) (e0 e1 : ℝ) (m0 σ : ℤ) (hA : |a.A - 2451545| ≤ 600)
    (h0 : |a.M0 - 357.52911 - 35999.05029 * (a.A - 2451545) / 36525 - 360 * m0| ≤ e0) (h1 : |a.M1 - 35999.05029 / 36525 * a.B - 360 * σ| ≤ e1 * a.B)
    (ht : e0 + e1 * 731100 + 400 * 0.0001537 ≤ 0.066) (y : ℝ) (hy : 10 ≤ y) (hy' : y ≤ 3990) :
    ∃ m : ℤ, |(mean y a).2.1 - Solar.MeanAnomaly (mean y a).2.2 - m * (2 * π)| ≤ 0.066 * (π / 180) := by
  have hr := runs_range a hB hB' y hy hy'
  rw [mean_eq]
  obtain ⟨J, hJ⟩ : ∃ J, J = a.A + cycleOf a y * a.B := ⟨_, rfl⟩
  rw [← hJ] at hr ⊢
  generalize cycleOf a y = k at *
  obtain ⟨T, hT⟩ : ∃ T, T = J2000Century J := ⟨_, rfl⟩
  rw [← hT]
  unfold J2000Century at hT
  have hT1 : |T| ≤ 20 := by
    rw [hT, abs_div, abs_of_pos (by norm_num : (0 : ℝ) < 36525), div_le_iff₀ (by norm_num)]; linarith
  have hk : |(k : ℝ)| * a.B ≤ 731100 := by
    have : |(k : ℝ)| * a.B = |k * a.B| := by rw [abs_mul, abs_of_pos hB]
    rw [this]
    have := abs_add_le (J - 2451545) (-(a.A - 2451545))
    rw [abs_neg, show J - 2451545 + -(a.A - 2451545) = k * a.B by rw [hJ]; ring] at this
    linarith
  obtain ⟨-, -, m2, e2⟩ := pmod_eq (a.M0 + k * a.M1) (by norm_num : (0 : ℝ) < 360)
  refine ⟨σ * k + m0 - m2, ?_⟩
  have e : pmod (a.M0 + k * a.M1) 360 * π / 180 - Solar.MeanAnomaly T - ((σ * k + m0 - m2 : ℤ) : ℝ) * (2 * π) =
      ((a.M0 - 357.52911 - 35999.05029 * (a.A - 2451545) / 36525 - 360 * m0) + k * (a.M1 - 35999.05029 / 36525 * a.B - 360 * σ) + 0.0001537 * T ^ 2) * (π / 180) := by
    unfold Solar.MeanAnomaly deg
    simp only [hornerR, List.foldr_cons, List.foldr_nil]
    have : T = (a.A - 2451545) / 36525 + k * a.B / 36525 := by rw [hT, hJ]; ring
    push_cast
    linear_combination (-(π / 180)) * e2 - 35999.05029 * (π / 180) * this
  have g0 : 0 < π / 180 := by positivity
  rw [e, abs_mul, abs_of_pos g0]
  refine mul_le_mul_of_nonneg_right ?_ g0.le
  have he1 : 0 ≤ e1 := by
    by_contra hn
    push Not at hn
    have := (abs_nonneg _).trans h1
    nlinarith
  have q1 : |k * (a.M1 - 35999.05029 / 36525 * a.B - 360 * σ)| ≤ e1 * 731100 := by
    rw [abs_mul]
    have := mul_le_mul_of_nonneg_left h1 (abs_nonneg (k : ℝ))
    have := mul_le_mul_of_nonneg_left hk he1
    linarith
  have q2 : |0.0001537 * T ^ 2| ≤ 400 * 0.0001537 := by
    rw [abs_mul, abs_pow, abs_of_pos (by norm_num : (0 : ℝ) < 0.0001537)]
    have t2 := pow_le_pow_left₀ (abs_nonneg T) hT1 2
    linarith
  refine (abs_add_le _ _).trans ?_
  have := abs_add_le (a.M0 - 357.52911 - 35999.05029 * (a.A - 2451545) / 36525 - 360 * m0) (k * (a.M1 - 35999.05029 / 36525 * a.B - 360 * σ))
  linarith

/-- C145.  The anomaly from which the corrections of all the events are computed is the Sun's mean anomaly of package solar, within 0.066°. -/
theorem C145_anomaly (y : ℝ) (h1 : 10 ≤ y) (h2 : y ≤ 3990) :
    ∀ a ∈ [micA, mscA, vicA, moA, joA, soA, scA, uoA, noA], ∃ m : ℤ, |(mean y a).2.1 - Solar.MeanAnomaly (mean y a).2.2 - m * (2 * π)| ≤ 0.066 * (π / 180) := by
  simp only [List.forall_mem_cons]
  refine ⟨?_, ?_, ?_, ?_, ?_, ?_, ?_, ?_, ?_, by simp⟩
  · exact anomaly_of micA (by norm_num [micA]) (by norm_num [micA]) 0.00032 0.000000001098 (-1) (0) (by norm_num [micA, abs_le]) (by norm_num [micA, abs_le]) (by norm_num [micA, abs_le]) (by norm_num) y h1 h2
  · exact anomaly_of mscA (by norm_num [mscA]) (by norm_num [mscA]) 0.00013 0.000000001098 (-1) (0) (by norm_num [mscA, abs_le]) (by norm_num [mscA, abs_le]) (by norm_num [mscA, abs_le]) (by norm_num) y h1 h2
  · exact anomaly_of vicA (by norm_num [vicA]) (by norm_num [vicA]) 0.00046 0.000000000164 (-2) (-1) (by norm_num [vicA, abs_le]) (by norm_num [vicA, abs_le]) (by norm_num [vicA, abs_le]) (by norm_num) y h1 h2
  · exact anomaly_of moA (by norm_num [moA]) (by norm_num [moA]) 0.00036 0.000000000224 (-2) (-2) (by norm_num [moA, abs_le]) (by norm_num [moA, abs_le]) (by norm_num [moA, abs_le]) (by norm_num) y h1 h2
  · exact anomaly_of joA (by norm_num [joA]) (by norm_num [joA]) 0.00008 0.000000002269 (-1) (-1) (by norm_num [joA, abs_le]) (by norm_num [joA, abs_le]) (by norm_num [joA, abs_le]) (by norm_num) y h1 h2
  · exact anomaly_of soA (by norm_num [soA]) (by norm_num [soA]) 0.00048 0.000000000272 (-1) (-1) (by norm_num [soA, abs_le]) (by norm_num [soA, abs_le]) (by norm_num [soA, abs_le]) (by norm_num) y h1 h2
  · exact anomaly_of scA (by norm_num [scA]) (by norm_num [scA]) 0.00047 0.000000000272 (-1) (-1) (by norm_num [scA, abs_le]) (by norm_num [scA, abs_le]) (by norm_num [scA, abs_le]) (by norm_num) y h1 h2
  · exact anomaly_of uoA (by norm_num [uoA]) (by norm_num [uoA]) 0.00042 0.000000002106 (-1) (-1) (by norm_num [uoA, abs_le]) (by norm_num [uoA, abs_le]) (by norm_num [uoA, abs_le]) (by norm_num) y h1 h2
  · exact anomaly_of noA (by norm_num [noA]) (by norm_num [noA]) 0.00021 0.000000000020 (-1) (-1) (by norm_num [noA, abs_le]) (by norm_num [noA, abs_le]) (by norm_num [noA, abs_le]) (by norm_num) y h1 h2

/-- For instance the year 2000. -/
example : ∃ v J, VenusInfConj 2000 = some v ∧ |v - J| ≤ 2.45 ∧ Aligned 1 (180 * (π / 180)) 0.01 J := (C145_alignment 2000 (by norm_num) (by norm_num)).2.2.1

end Verif.Props
