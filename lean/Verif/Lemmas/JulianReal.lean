import Verif.Lemmas.Calendar
import Verif.Lemmas.CalendarSpec

namespace Verif.Lemmas

open Verif.Go Verif.Model Verif.Model.Julian Verif.Spec

theorem validInstant_floor {leap : Int → Prop} [DecidablePred leap] {y m : Int} {d : ℝ}
    (h : ValidInstant leap y m d) : ValidDate leap y m ⌊d⌋ := by
  obtain ⟨h1, h2, h3, h4⟩ := h
  refine ⟨h1, h2, Int.le_floor.2 (by exact_mod_cast h3), ?_⟩
  have : ⌊d⌋ < monthLen (leap y) m + 1 := Int.floor_lt.2 (by push_cast; exact h4)
  omega

theorem validDate_instant {leap : Int → Prop} [DecidablePred leap] {y m D : Int} {f : ℝ}
    (h : ValidDate leap y m D) (hf0 : 0 ≤ f) (hf1 : f < 1) : ValidInstant leap y m ((D : ℝ) + f) := by
  obtain ⟨h1, h2, h3, h4⟩ := h
  refine ⟨h1, h2, ?_, ?_⟩
  · have : (1 : ℝ) ≤ D := by exact_mod_cast h3
    linarith
  · have : (D : ℝ) ≤ monthLen (leap y) m := by exact_mod_cast h4
    linarith

theorem modf_nonneg {x : ℝ} (h : 0 ≤ x) : modf x = (⌊x⌋, x - ⌊x⌋) := by
  simp [modf, trunc_nonneg h]

/-- Splitting `N + d` into its integer and fractional part. -/
theorem modf_int_add (N : Int) (d : ℝ) (h : 0 ≤ (N : ℝ) + d) :
    modf ((N : ℝ) + d) = (N + ⌊d⌋, d - ⌊d⌋) := by
  rw [modf_nonneg h]
  have : ⌊(N : ℝ) + d⌋ = N + ⌊d⌋ := Int.floor_intCast_add N d
  rw [this]; push_cast; congr 1; ring

theorem jdToCal_greg_core (y m : Int) (d : ℝ) (hv : ValidInstant LeapG y m d)
    (hjd : 0 ≤ CalendarGregorianToJD y m d + 0.5) :
    jdToCalendarGregorian (CalendarGregorianToJD y m d) = (y, m, d) := by
  have hv' := validInstant_floor hv
  have he : CalendarGregorianToJD y m d + 0.5 = ((gregN y m 0 : Int) : ℝ) + d := by
    rw [CalendarGregorianToJD_eq]; ring
  unfold jdToCalendarGregorian
  rw [he] at hjd ⊢
  rw [modf_int_add _ _ hjd]
  simp only [← gregN_add, fromA_gregN y m ⌊d⌋ hv']
  simp

theorem jdToCal_greg (y m : Int) (d : ℝ) (hv : ValidInstant LeapG y m d)
    (hjd : 2299150.5 ≤ CalendarGregorianToJD y m d) :
    JDToCalendar (CalendarGregorianToJD y m d) = (y, m, d) := by
  have hv' := validInstant_floor hv
  have he : CalendarGregorianToJD y m d + 0.5 = ((gregN y m 0 : Int) : ℝ) + d := by
    rw [CalendarGregorianToJD_eq]; ring
  unfold JDToCalendar
  have hjd' : (2299151 : ℝ) ≤ ((gregN y m 0 : Int) : ℝ) + d := by linarith
  rw [he, modf_int_add _ _ (by linarith)]
  have hz : gregN y m 0 + ⌊d⌋ ≥ 2299151 := by
    rw [← Int.floor_intCast_add]; exact Int.le_floor.2 (by exact_mod_cast hjd')
  rw [← gregN_add] at hz
  simp only [← gregN_add, hz, if_true, fromA_gregN y m ⌊d⌋ hv']
  simp

theorem jdToCal_jul (y m : Int) (d : ℝ) (hv : ValidInstant LeapJ y m d)
    (h0 : -0.5 ≤ CalendarJulianToJD y m d) (hjd : CalendarJulianToJD y m d < 2299150.5) :
    JDToCalendar (CalendarJulianToJD y m d) = (y, m, d) := by
  have hv' := validInstant_floor hv
  have he : CalendarJulianToJD y m d + 0.5 = ((julN y m 0 : Int) : ℝ) + d := by
    rw [CalendarJulianToJD_eq]; ring
  unfold JDToCalendar
  have hjd' : ((julN y m 0 : Int) : ℝ) + d < (2299151 : ℝ) := by linarith
  rw [he, modf_int_add _ _ (by linarith)]
  have hz : ¬ julN y m 0 + ⌊d⌋ ≥ 2299151 := by
    rw [← Int.floor_intCast_add, ge_iff_le, not_le]; exact Int.floor_lt.2 (by exact_mod_cast hjd')
  rw [← julN_add] at hz
  simp only [← julN_add, hz, if_false, fromA_julN y m ⌊d⌋ hv']
  simp

/-- Every JD is the JD of a valid Gregorian instant. -/
theorem greg_surj (jd : ℝ) : ∃ y m d, ValidInstant LeapG y m d ∧ CalendarGregorianToJD y m d = jd := by
  obtain ⟨y, m, D, hv, hz⟩ := dayCount_surj LeapG (⌊jd + 0.5⌋ - 1721060)
  refine ⟨y, m, (D : ℝ) + Int.fract (jd + 0.5),
    validDate_instant hv (Int.fract_nonneg _) (Int.fract_lt_one _), ?_⟩
  rw [CalendarGregorianToJD_eq]
  have h1 := gregN_dayCount y m D hv.1 hv.2.1
  rw [gregN_add] at h1
  have h2 : ((gregN y m 0 : Int) : ℝ) + D = ⌊jd + 0.5⌋ := by
    have : gregN y m 0 + D = ⌊jd + 0.5⌋ := by omega
    exact_mod_cast this
  have h3 := Int.floor_add_fract (jd + 0.5)
  linarith

theorem jul_surj (jd : ℝ) : ∃ y m d, ValidInstant LeapJ y m d ∧ CalendarJulianToJD y m d = jd := by
  obtain ⟨y, m, D, hv, hz⟩ := dayCount_surj LeapJ (⌊jd + 0.5⌋ - 1721058)
  refine ⟨y, m, (D : ℝ) + Int.fract (jd + 0.5),
    validDate_instant hv (Int.fract_nonneg _) (Int.fract_lt_one _), ?_⟩
  rw [CalendarJulianToJD_eq]
  have h1 := julN_dayCount y m D hv.1 hv.2.1
  rw [julN_add] at h1
  have h2 : ((julN y m 0 : Int) : ℝ) + D = ⌊jd + 0.5⌋ := by
    have : julN y m 0 + D = ⌊jd + 0.5⌋ := by omega
    exact_mod_cast this
  have h3 := Int.floor_add_fract (jd + 0.5)
  linarith

theorem leapG_iff (y : Int) : LeapYearGregorian y = true ↔ LeapG y := by
  unfold LeapYearGregorian LeapG
  simp [rem_eq_zero_iff, bne_iff_ne, ne_eq]

theorem leapJ_iff (y : Int) : LeapYearJulian y = true ↔ LeapJ y := by
  unfold LeapYearJulian LeapJ
  simp [rem_eq_zero_iff]

theorem countYears_yearsLen (leap : Int → Prop) [DecidablePred leap] (p : Int → Bool)
    (hp : ∀ y, p y = true ↔ leap y) (y : Int) (n : Nat) :
    yearsLen leap y n = 365 * n + countYears p y n := by
  induction n with
  | zero => simp [yearsLen, countYears]
  | succ n ih =>
    rw [yearsLen, countYears, ih, yearLen]
    by_cases hl : leap (y + n)
    · simp only [hl, (hp _).2 hl, if_true]; push_cast; ring
    · have : ¬ p (y + n) = true := fun h => hl ((hp _).1 h)
      simp only [hl, this, if_false]; push_cast; ring

theorem yearsLen_eq (leap : Int → Prop) [DecidablePred leap] (y : Int) (n : Nat) :
    yearsLen leap y n = yearStart leap (y + n) - yearStart leap y := by
  induction n with
  | zero => simp [yearsLen]
  | succ n ih =>
    rw [yearsLen, ih]
    have := yearStart_succ leap (y + n)
    push_cast; rw [← add_assoc, this]; ring

end Verif.Lemmas
