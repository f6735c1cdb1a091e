import Verif.Model.JulianTime
import Verif.Model.PlanetPos
import Verif.Props.Julian
/-
C135, C136: Julian days and time.Time; Julian and Besselian years.
-/
namespace Verif.Props

open Verif.Go Verif.Model Verif.Model.Julian Verif.Model.JulianTime Verif.Spec Verif.Lemmas

theorem midnight_day (y m d e : ℤ) : midnight y m d = midnight y m e + dayNs * (d - e) := by
  unfold midnight
  rw [dayCount_day LeapG y m d e]; ring

/-- C135.  TimeToJD is linear in the instant: the Julian day of the instant t nanoseconds after 2000 January 1, 0h, for every t. -/
theorem C135_linear (lib : Lib) (h : lib.Ok) (t : ℤ) : TimeToJD lib t = 2451544.5 + (t : ℝ) / 86400000000000 := by
  obtain ⟨m1, m2⟩ := h.month t
  unfold TimeToJD
  dsimp only
  rw [h.date0 _ _ m1 m2, C02_gregorian_dayCount _ _ _ m1 m2, midnight_day _ _ 0 1]
  unfold midnight dayNs
  push_cast
  field_simp
  ring

/-- C135.  JDToTime returns the instant of the Julian day, truncated to nanoseconds, for all days from −0.5 on. -/
theorem C135_instant (lib : Lib) (h : lib.Ok) (jd : ℝ) (hj : -0.5 ≤ jd) :
    JDToTime lib jd = ⌊(jd - 2451544.5) * 86400000000000⌋ := by
  obtain ⟨y, m, d, hq, hv, hd⟩ := C04_jd_proleptic jd hj
  obtain ⟨m1, m2, d1, -⟩ := hv
  unfold JDToTime
  rw [hq]
  dsimp only
  rw [h.date0 _ _ m1 m2, trunc_nonneg (by positivity), midnight_day _ _ 0 1, ← hd, C02_gregorian_dayCount _ _ _ m1 m2, ← Int.floor_intCast_add]
  congr 1
  unfold midnight dayNs
  push_cast
  ring

/-- C135.  A Julian day survives the way to a time.Time and back, up to less than a nanosecond. -/
theorem C135_jd_roundtrip (lib : Lib) (h : lib.Ok) (jd : ℝ) (hj : -0.5 ≤ jd) :
    TimeToJD lib (JDToTime lib jd) ≤ jd ∧ jd - TimeToJD lib (JDToTime lib jd) < 1 / 86400000000000 := by
  rw [C135_linear lib h, C135_instant lib h jd hj]
  have h1 := Int.floor_le ((jd - 2451544.5) * 86400000000000)
  have h2 := Int.lt_floor_add_one ((jd - 2451544.5) * 86400000000000)
  constructor
  · have : (⌊(jd - 2451544.5) * 86400000000000⌋ : ℝ) / 86400000000000 ≤ jd - 2451544.5 := by
      rw [div_le_iff₀ (by norm_num)]; exact h1
    linarith
  · have : jd - 2451544.5 < ((⌊(jd - 2451544.5) * 86400000000000⌋ : ℝ) + 1) / 86400000000000 := by
      rw [lt_div_iff₀ (by norm_num)]; exact h2
    rw [add_div] at this
    linarith

/-- C135.  A time.Time not before JD −0.5 survives the way to a Julian day and back. -/
theorem C135_time_roundtrip (lib : Lib) (h : lib.Ok) (t : ℤ) (ht : -0.5 ≤ TimeToJD lib t) : JDToTime lib (TimeToJD lib t) = t := by
  rw [C135_instant lib h _ ht, C135_linear lib h]
  rw [show (2451544.5 + (t : ℝ) / 86400000000000 - 2451544.5) * 86400000000000 = (t : ℝ) by field_simp; ring]
  exact Int.floor_intCast t

/-- The assumption on package time can be met. -/
theorem C135_lib_exists : ∃ lib : Lib, lib.Ok := by
  have hs : ∀ t : ℤ, ∃ ym : ℤ × ℤ, 1 ≤ ym.2 ∧ ym.2 ≤ 12 ∧ midnight ym.1 ym.2 1 ≤ t ∧
      t < midnight ym.1 ym.2 (monthLen (LeapG ym.1) ym.2 + 1) := by
    intro t
    obtain ⟨y, m, d, ⟨h1, h2, h3, h4⟩, hz⟩ := dayCount_surj LeapG (t / dayNs + dayCount LeapG 2000 1 1)
    have hm : midnight y m d = dayNs * (t / dayNs) := by unfold midnight; rw [hz]; ring
    have e1 := midnight_day y m d 1
    have e2 := midnight_day y m (monthLen (LeapG y) m + 1) d
    have d1 : dayNs * (t / dayNs) ≤ t := Int.mul_ediv_self_le (by decide)
    have d2 : t < dayNs * (t / dayNs) + dayNs := Int.lt_mul_ediv_self_add (by decide)
    have hp : (0 : ℤ) < dayNs := by decide
    refine ⟨(y, m), h1, h2, ?_, ?_⟩
    · dsimp only; nlinarith
    · dsimp only; nlinarith
  choose f hf using hs
  exact ⟨⟨fun y m => midnight y m 0, f⟩, fun _ _ _ _ => rfl, fun t => ⟨(hf t).1, (hf t).2.1⟩, fun t => (hf t).2.2.1, fun t => (hf t).2.2.2⟩

/-- C136.  Julian years and Julian ephemeris days are converted into each other without loss, J2000.0 is the year 2000, a hundred years are a
century; the same for Besselian years, of which B1950.0 is the epoch constant up to 10⁻⁴ day. -/
theorem C136_years (x : ℝ) :
    JDEToJulianYear (JulianYearToJDE x) = x ∧ JulianYearToJDE (JDEToJulianYear x) = x ∧
    JDEToBesselianYear (BesselianYearToJDE x) = x ∧ BesselianYearToJDE (JDEToBesselianYear x) = x ∧
    JulianYearToJDE 2000 = 2451545 ∧ J2000Century (JulianYearToJDE x) = (x - 2000) / 100 ∧
    BesselianYearToJDE 1900 = 2415020.3135 ∧ |BesselianYearToJDE 1950 - 2433282.4235| ≤ 0.0001 := by
  unfold JDEToJulianYear JulianYearToJDE JDEToBesselianYear BesselianYearToJDE J2000Century
  refine ⟨by ring, by ring, by field_simp; ring, by field_simp; ring, by norm_num, by ring, by norm_num, ?_⟩
  rw [abs_le]; constructor <;> norm_num

/-- C136.  Dates from the calendar: noon of 2000 January 1 is the Julian year 2000, and every Gregorian cycle of 400 years is shorter than 400
Julian years by three days. -/
theorem C136_calendar (y : ℤ) :
    JDEToJulianYear (CalendarGregorianToJD 2000 1 1.5) = 2000 ∧
    JDEToJulianYear (CalendarGregorianToJD (y + 400) 1 1) - JDEToJulianYear (CalendarGregorianToJD y 1 1) = 400 - 3 / 365.25 := by
  have h1 := C02_gregorian_dayCount 2000 1 1.5 (by norm_num) (by norm_num)
  have h2 := C02_gregorian_dayCount (y + 400) 1 1 (by norm_num) (by norm_num)
  have h3 := C02_gregorian_dayCount y 1 1 (by norm_num) (by norm_num)
  have h4 : dayCount LeapG (y + 400) 1 1 = dayCount LeapG y 1 1 + 146097 := by
    unfold dayCount
    rw [yearStart_G, yearStart_G]
    simp only [show ((1 : ℤ) - 1).toNat = 0 from rfl, monthsLen]
    omega
  rw [h1, h2, h3, h4]
  unfold JDEToJulianYear
  push_cast
  constructor
  · norm_num
  · ring

end Verif.Props
